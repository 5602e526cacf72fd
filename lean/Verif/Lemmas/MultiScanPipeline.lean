import Verif.Spec.MultiScanPipeline
import Verif.Props.Pipeline
import Verif.Props.ScanGrid
import Verif.Props.ScanParams

/-!
Helper lemmas for C78 and C79.
-/

namespace Qsc.MultiScanPipeline

open Qsc.Sections Qsc.Pipeline Qsc.Spec.Sections Qsc.Spec.Pipeline Qsc.Spec.MultiScanPipeline
open Qsc.ScanParams Qsc.Spec.ScanParams

variable {P : Type}

theorem range_getD {α : Type} (l : List α) (d : α) (n : Nat) (h : l.length = n) :
    (List.range n).map (fun j => l.getD j d) = l := by
  subst h
  apply List.ext_getElem
  · simp
  · intro i h1 h2
    simp at h1
    simp [h2]

theorem mapM_map {ε α β : Type} {f : α → Except ε β} {g : α → β} (l : List α)
    (h : ∀ a ∈ l, f a = .ok (g a)) : l.mapM f = .ok (l.map g) := by
  induction l with
  | nil => rfl
  | cons a l ih =>
    rw [List.mapM_cons, h a (by simp), ih fun x hx => h x (by simp [hx])]
    rfl

/-! ## The scanned parameters -/

theorem scanned_exists {o : Obj ℝ} (ht : Typed multiScanDoc o) {n : Nat}
    (hl : ∀ m ∈ ["params", "params_min", "params_max", "params_n", "params_stage", "params_log"],
      Len o m n) : ∃ ds, IsScanned o ds ∧ ds.length = n := by
  have kind : ∀ {κ k v}, multiScanDoc.Has κ k → o k = some v → OfKind κ v := by
    intro κ k v hk hv
    obtain ⟨v', e, h⟩ := ht κ k hk
    rw [hv] at e; cases e; exact h
  obtain ⟨ps, e1, n1⟩ : ∃ l, o "params" = some (.strs l) ∧ l.length = n := by
    rcases hl "params" (by simp) with ⟨l, e, hn⟩ | ⟨l, e, hn⟩ | ⟨l, e, hn⟩ | ⟨l, e, hn⟩
    · obtain ⟨_, h⟩ := kind (κ := .strs) (by simp [Doc.Has, multiScanDoc]) e; cases h
    · obtain ⟨_, h⟩ := kind (κ := .strs) (by simp [Doc.Has, multiScanDoc]) e; cases h
    · obtain ⟨_, h⟩ := kind (κ := .strs) (by simp [Doc.Has, multiScanDoc]) e; cases h
    · exact ⟨l, e, hn⟩
  have flt : ∀ k, k = "params_min" ∨ k = "params_max" → ∃ l, o k = some (.flts l) ∧ l.length = n := by
    intro k hk
    have hd : multiScanDoc.Has .flts k := by
      rcases hk with rfl | rfl <;> simp [Doc.Has, multiScanDoc]
    rcases hl k (by rcases hk with rfl | rfl <;> simp) with
      ⟨l, e, hn⟩ | ⟨l, e, hn⟩ | ⟨l, e, hn⟩ | ⟨l, e, hn⟩
    · exact ⟨l, e, hn⟩
    · obtain ⟨_, h⟩ := kind hd e; cases h
    · obtain ⟨_, h⟩ := kind hd e; cases h
    · obtain ⟨_, h⟩ := kind hd e; cases h
  have int : ∀ k, k = "params_n" ∨ k = "params_stage" → ∃ l, o k = some (.ints l) ∧ l.length = n := by
    intro k hk
    have hd : multiScanDoc.Has .ints k := by
      rcases hk with rfl | rfl <;> simp [Doc.Has, multiScanDoc]
    rcases hl k (by rcases hk with rfl | rfl <;> simp) with
      ⟨l, e, hn⟩ | ⟨l, e, hn⟩ | ⟨l, e, hn⟩ | ⟨l, e, hn⟩
    · obtain ⟨_, h⟩ := kind hd e; cases h
    · obtain ⟨_, h⟩ := kind hd e; cases h
    · exact ⟨l, e, hn⟩
    · obtain ⟨_, h⟩ := kind hd e; cases h
  obtain ⟨lo, e2, n2⟩ := flt "params_min" (by simp)
  obtain ⟨hi, e3, n3⟩ := flt "params_max" (by simp)
  obtain ⟨ns, e4, n4⟩ := int "params_n" (by simp)
  obtain ⟨st, e5, n5⟩ := int "params_stage" (by simp)
  obtain ⟨lg, e6, n6⟩ : ∃ l, o "params_log" = some (.bools l) ∧ l.length = n := by
    rcases hl "params_log" (by simp) with ⟨l, e, hn⟩ | ⟨l, e, hn⟩ | ⟨l, e, hn⟩ | ⟨l, e, hn⟩
    · obtain ⟨_, h⟩ := kind (κ := .bools) (by simp [Doc.Has, multiScanDoc]) e; cases h
    · exact ⟨l, e, hn⟩
    · obtain ⟨_, h⟩ := kind (κ := .bools) (by simp [Doc.Has, multiScanDoc]) e; cases h
    · obtain ⟨_, h⟩ := kind (κ := .bools) (by simp [Doc.Has, multiScanDoc]) e; cases h
  refine ⟨(List.range n).map fun j => ⟨ps.getD j "", st.getD j 0, lg.getD j false, lo.getD j 0,
    hi.getD j 0, ns.getD j 0⟩, ⟨?_, ?_, ?_, ?_, ?_, ?_⟩, by simp⟩
  · rw [e1, List.map_map]; congr 2; exact (range_getD ps "" n n1).symm
  · rw [e5, List.map_map]; congr 2; exact (range_getD st 0 n n5).symm
  · rw [e6, List.map_map]; congr 2; exact (range_getD lg false n n6).symm
  · rw [e2, List.map_map]; congr 2; exact (range_getD lo 0 n n2).symm
  · rw [e3, List.map_map]; congr 2; exact (range_getD hi 0 n n3).symm
  · rw [e4, List.map_map]; congr 2; exact (range_getD ns 0 n n4).symm

/-- A scanned parameter as the code sees it. -/
def dimOf (d : Scanned) : Dim := ⟨d.name, d.stage, ⟨d.log, d.lo, d.hi, d.n⟩⟩

theorem dims_eq {o : Obj ℝ} {ds : List Scanned} (h : IsScanned o ds) :
    (List.range ds.length).mapM (dimAt o) = .ok (ds.map dimOf) := by
  have e : (List.range ds.length).mapM (dimAt o) = .ok ((List.range ds.length).map fun j =>
      dimOf (ds.getD j ⟨"", 0, false, 0, 0, 0⟩)) := by
    refine mapM_map _ fun j hj => ?_
    have hj : j < ds.length := List.mem_range.1 hj
    simp [dimAt, strAt, intAt, boolAt, fltAt, h.params, h.stage, h.log, h.lo, h.hi, h.n, hj, need,
      Except.bind, dimOf]
  rw [e]
  congr 1
  have := congrArg (List.map dimOf) (range_getD ds ⟨"", 0, false, 0, 0, 0⟩ ds.length rfl)
  rwa [List.map_map] at this

/-! ## `axis_nmax_plus_1` -/

theorem refine_typed {o : Obj ℝ} (h : Typed optDoc o) : ∃ k, o "fourier_refine" = some (.int k) := by
  obtain ⟨v, e, i, rfl⟩ := h .int "fourier_refine" (by simp [Doc.Has, optDoc])
  exact ⟨i, e⟩

theorem raw_typed {o : Obj ℝ} (h : Typed optDoc o) : ∃ s, IsRaw o s :=
  (rawOf_typed h).imp fun _ h => h.2

theorem refines_eq (os : List (OptObj ℝ)) (ht : ∀ o ∈ os, Typed optDoc o.mem)
    (hs : NaturalSizes os) :
    os.mapM (fun o => getInt o.mem "fourier_refine") = some (os.map fun o => (refineOf o : Int)) := by
  induction os with
  | nil => rfl
  | cons o os ih =>
    obtain ⟨s, hr⟩ := raw_typed (ht o (by simp))
    have hn := ((hs o (by simp)).2 s hr).1.refine.1
    rw [List.mapM_cons, ih (fun x hx => ht x (by simp [hx])) fun x hx => hs x (by simp [hx])]
    have e : getInt o.mem "fourier_refine" = some (refineOf o : Int) := by
      simp only [getInt, refineOf, hr.refine]
      congr 1; omega
    rw [e]; rfl

theorem axisCount_eq (os : List (OptObj ℝ)) (ht : ∀ o ∈ os, Typed optDoc o.mem)
    (hs : NaturalSizes os) (o : OptObj ℝ) (ho : os[0]? = some o) :
    axisCount os = .ok (o.q.R0c.length + (os.map refineOf).sum) := by
  have e : (os.map fun o => (refineOf o : Int)).sum = ((os.map refineOf).sum : Nat) := by
    clear ho hs ht
    induction os with
    | nil => rfl
    | cons o os ih => simp [ih]
  unfold axisCount
  rw [ho, refines_eq os ht hs]
  simp only [need, Except.bind, e]
  rw [if_neg (by omega)]
  congr 1

/-! ## The values of a grid point -/

theorem decode_get (ns : List Nat) (h : ∀ n ∈ ns, 0 < n) (i k n : Nat) (hk : ns[k]? = some n) :
    (ScanGrid.decode ns i)[k]? = some (i / (ns.drop (k + 1)).prod % n) := by
  induction ns generalizing k with
  | nil => simp at hk
  | cons m ns ih =>
    rw [ScanGrid.decode_cons _ _ _ fun x hx => h x (by simp [hx])]
    cases k with
    | zero => simp at hk; simp [hk]
    | succ k => simpa using ih (fun x hx => h x (by simp [hx])) k (by simpa using hk)

theorem grid_value (log : Bool) (a b : ℝ) (hp : log = true → 0 < a ∧ 0 < b) (n c : Nat) (m : Int)
    (hm : 2 ≤ m) (hn : n = m.toNat) : ScanGrid.grid log a b n c =
      if log then a * (b / a) ^ ((c : ℝ) / ((m : ℝ) - 1)) else a + (b - a) * ((c : ℝ) / ((m : ℝ) - 1)) := by
  have e : (n : ℝ) = (m : ℝ) := by
    subst hn
    have : ((m.toNat : Int) : ℝ) = (m : ℝ) := by rw [Int.toNat_of_nonneg (by omega)]
    rw [← this]; exact (Int.cast_natCast _).symm
  unfold ScanGrid.grid
  rw [e]
  cases log with
  | false => simp; ring
  | true =>
    obtain ⟨ha, hb⟩ := hp rfl
    simp only [if_true]
    rw [Real.exp_add, Real.exp_log ha, Real.rpow_def_of_pos (div_pos hb ha), Real.log_div hb.ne' ha.ne',
      mul_div_assoc]

/-- The parameters of grid point `i`. -/
noncomputable def paramsOf (ds : List Scanned) (i : Nat) : List (Param ℝ) :=
  ds.zipIdx.map fun x => ⟨x.1.name, x.1.stage, pointValue ds i x.2 x.1⟩

theorem paramsAt_eq (ds : List Scanned) (hp : Positive ds) (h2 : ∀ d ∈ ds, 2 ≤ d.n) (p : Plan)
    (hd : p.dims = ds.map dimOf)
    (hv : p.vals = (ds.map dimOf).map fun d =>
      (List.range d.grid.n.toNat).map (ScanGrid.grid d.grid.log d.grid.min d.grid.max d.grid.n.toNat))
    (i : Nat) : paramsAt p i = .ok (paramsOf ds i) := by
  have e : paramsAt p i = .ok (p.dims.zipIdx.map fun x => ⟨x.1.name, x.1.stage,
      pointValue ds i x.2 (ds.getD x.2 ⟨"", 0, false, 0, 0, 0⟩)⟩) := by
    refine mapM_map _ ?_
    rintro ⟨d, k⟩ hk
    have hk := List.mem_zipIdx_iff_getElem?.1 hk
    simp only at hk
    rw [hd, List.getElem?_map, Option.map_eq_some_iff] at hk
    obtain ⟨s, hs, rfl⟩ := hk
    have hmem := List.mem_of_getElem? hs
    have hdec := decode_get (p.dims.map fun d => d.grid.n.toNat) (by
      intro n hn
      rw [hd, List.map_map] at hn
      obtain ⟨d, hd, rfl⟩ := List.mem_map.1 hn
      have := h2 d hd
      show 0 < d.n.toNat
      omega) i k s.n.toNat (by simp [hd, hs, dimOf])
    have hc : i / ((p.dims.map fun d => d.grid.n.toNat).drop (k + 1)).prod % s.n.toNat =
        coordinate ds k i s.n.toNat := by
      rw [hd, List.map_map, coordinate, points, List.map_drop]
      rfl
    rw [hc] at hdec
    have hlt : coordinate ds k i s.n.toNat < s.n.toNat :=
      Nat.mod_lt _ (by have := h2 s hmem; omega)
    have hval : ((p.vals[k]?).bind fun v => v[coordinate ds k i s.n.toNat]?) =
        some (pointValue ds i k s) := by
      rw [hv]
      simp only [List.getElem?_map, hs, Option.map_some, Option.bind_some, dimOf]
      rw [List.getElem?_range hlt]
      simp only [Option.map_some, Option.some.injEq]
      rw [grid_value _ _ _ (hp s hmem) _ _ s.n (h2 s hmem) rfl]
      rfl
    simp only [hdec, need, Except.bind, hval]
    have hg : ds.getD k ⟨"", 0, false, 0, 0, 0⟩ = s := by
      rw [List.getD_eq_getElem?_getD, hs]; rfl
    rw [hg]
  rw [e]
  congr 1
  rw [hd, paramsOf, List.zipIdx_map, List.map_map]
  refine List.map_congr_left ?_
  rintro ⟨d, k⟩ hk
  have hk := List.mem_zipIdx_iff_getElem?.1 hk
  simp only at hk
  simp [dimOf, List.getD_eq_getElem?_getD, hk]

/-! ## Setting the parameters -/

/-- Acceptance depends on the sizes of the arrays only. -/
theorem accepts_congr {F : Type} (nm : Nat) (ss ss' : List (Stage F)) (p : Param F)
    (hl : ss'.length = ss.length)
    (h : ∀ (j : Nat) s, ss[j]? = some s → ∃ s', ss'[j]? = some s' ∧
      ∀ x, (valueAt s' x).isSome = (valueAt s x).isSome) :
    Accepts nm ss' p ↔ Accepts nm ss p := by
  have h' : ∀ (j : Nat) s', ss'[j]? = some s' → ∃ s, ss[j]? = some s ∧
      ∀ x, (valueAt s' x).isSome = (valueAt s x).isSome := by
    intro j s' hs'
    have hj : j < ss.length := by rw [← hl]; exact (List.getElem?_eq_some_iff.1 hs').1
    obtain ⟨t, ht, hr⟩ := h j _ (List.getElem?_eq_getElem hj)
    rw [hs'] at ht
    cases ht
    exact ⟨_, List.getElem?_eq_getElem hj, hr⟩
  have hnil : ss' = [] ↔ ss = [] := by
    rw [← List.length_eq_zero_iff, ← List.length_eq_zero_iff, hl]
  constructor
  · rintro ⟨h1, h2⟩
    refine ⟨by omega, h2.imp hnil.1 ?_⟩
    rintro ⟨sl, a, b, c⟩
    refine ⟨sl, a, fun hi j hj => b hi j (by omega), fun j s hc hs => ?_⟩
    obtain ⟨s', hs', hr⟩ := h j s hs
    rw [← hr]; exact c j s' hc hs'
  · rintro ⟨h1, h2⟩
    refine ⟨by omega, h2.imp hnil.2 ?_⟩
    rintro ⟨sl, a, b, c⟩
    refine ⟨sl, a, fun hi j hj => b hi j (by omega), fun j s hc hs => ?_⟩
    obtain ⟨s', hs', hr⟩ := h' j s hs
    rw [hr]; exact c j s' hc hs'

theorem setAll_ok_iff {F : Type} (nm : Nat) (ref : List (Stage F)) (ps : List (Param F)) :
    (∃ ss, setAll nm ref ps = .ok ss) ↔ ∀ p ∈ ps, Accepts nm ref p := by
  unfold setAll
  induction ps generalizing ref with
  | nil => simp [pure, Except.pure]
  | cons p ps ih =>
    rw [List.foldlM_cons, List.forall_mem_cons, ← param_ok_iff]
    cases h : setParam nm ref p with
    | error e => simp [bind, Except.bind]
    | ok s1 =>
      have hc : ∀ q, Accepts nm s1 q ↔ Accepts nm ref q := by
        intro q
        obtain ⟨a1, a2⟩ := param_exact nm ref s1 p h
        refine accepts_congr nm ref s1 q a1 fun j s hs => ?_
        obtain ⟨s', hs', hr⟩ := a2 j s hs
        refine ⟨s', hs', fun x => ?_⟩
        rw [hr]
        split
        · next hx =>
          have hacc := (param_ok_iff nm ref p).1 ⟨s1, h⟩
          rcases hacc.named with rfl | ⟨sl, n1, -, n3⟩
          · simp at hs
          · obtain rfl := Names.unique hx.2 n1
            rw [n3 j s hx.1 hs]; rfl
        · rfl
      show (∃ ss, List.foldlM (setParam nm) s1 ps = .ok ss) ↔ _
      rw [ih s1]
      simp [hc]

/-- The accepted parameters in terms of the input file. -/
theorem accepts_iff (N nm : Nat) (os : List (OptObj ℝ)) (hne : os ≠ []) (hnm : N ≤ nm)
    (hR : ∀ o ∈ os, o.q.R0c.length = N) (hZ : ∀ o ∈ os, o.q.Z0s.length = N) (d : Scanned) (v : ℝ) :
    Accepts nm (os.map stageOf) ⟨d.name, d.stage, v⟩ ↔ Scannable N os.length d := by
  have hpos : 0 < os.length := List.length_pos_iff.2 hne
  have hst : ∀ {sl : Slot}, (InitialCondition sl → ∀ j, j < (os.map stageOf).length →
      Concerns d.stage j → j = 0) → d.stage < os.length → InitialCondition sl →
      (d.stage = 0 ∨ d.stage < 0 ∧ os.length = 1) := by
    intro sl h hl hi
    rw [List.length_map] at h
    by_cases h0 : d.stage < 0
    · right
      refine ⟨h0, ?_⟩
      by_contra hc
      have := h hi 1 (by omega) (.inl h0)
      omega
    · left
      have := h hi d.stage.toNat (by omega) (.inr (by omega))
      omega
  have hst' : (d.stage = 0 ∨ d.stage < 0 ∧ os.length = 1) → ∀ j, j < (os.map stageOf).length →
      Concerns d.stage j → j = 0 := by
    intro h j hj hc
    rw [List.length_map] at hj
    rcases h with h | ⟨h, h'⟩
    · rcases hc with hc | hc <;> omega
    · omega
  constructor
  · rintro ⟨h1, h2⟩
    simp only [List.length_map] at h1
    refine ⟨h1, ?_⟩
    rcases h2 with h2 | ⟨sl, hn, hi, hs⟩
    · exact absurd (List.map_eq_nil_iff.1 h2) hne
    have hex : ∃ j : Nat, ∃ o, os[j]? = some o ∧ Concerns d.stage j := by
      by_cases h0 : d.stage < 0
      · exact ⟨0, _, List.getElem?_eq_getElem hpos, .inl h0⟩
      · exact ⟨d.stage.toNat, _, List.getElem?_eq_getElem (by omega), .inr (by omega)⟩
    obtain ⟨j, o, ho, hj⟩ := hex
    have hsl := hs j (stageOf o) hj (by rw [List.getElem?_map, ho]; rfl)
    have hmem := List.mem_of_getElem? ho
    simp only at hn
    generalize hx : d.name = x at hn
    cases hn with
    | R0c k k1 k2 =>
      right
      refine ⟨.inr <| .inr <| .inr <| .inr ⟨k, k1, ?_, .inl rfl⟩, hst hi h1 trivial⟩
      simpa [valueAt, stageOf, hR o hmem] using hsl
    | Z0s k k1 k2 =>
      right
      refine ⟨.inr <| .inr <| .inr <| .inr ⟨k, k1, ?_, .inr rfl⟩, hst hi h1 trivial⟩
      simpa [valueAt, stageOf, hZ o hmem] using hsl
    | setting x h => exact .inl h
    | etaBar => exact .inr ⟨.inl rfl, hst hi h1 (by simp [InitialCondition])⟩
    | p2 => exact .inr ⟨.inr <| .inl rfl, hst hi h1 (by simp [InitialCondition])⟩
    | B2c => exact .inr ⟨.inr <| .inr <| .inl rfl, hst hi h1 (by simp [InitialCondition])⟩
    | B2s => exact .inr ⟨.inr <| .inr <| .inr <| .inl rfl, hst hi h1 (by simp [InitialCondition])⟩
  · rintro ⟨h1, h2⟩
    refine ⟨by simpa using h1, .inr ?_⟩
    simp only
    have hstg : ∀ (j : Nat) (s : Stage ℝ), (os.map stageOf)[j]? = some s →
        ∃ o ∈ os, s = stageOf o := by
      intro j s hs
      rw [List.getElem?_map, Option.map_eq_some_iff] at hs
      obtain ⟨o, ho, rfl⟩ := hs
      exact ⟨o, List.mem_of_getElem? ho, rfl⟩
    rcases h2 with h2 | ⟨h2, h3⟩
    · refine ⟨_, .setting _ h2, fun hi => ?_, fun j s _ _ => rfl⟩
      exfalso
      revert hi
      have : ∀ x ∈ settings, ¬ (x = "q.eta_bar" ∨ x = "q.p2" ∨ x = "q.B2c" ∨ x = "q.B2s") := by decide
      exact this _ h2
    · rcases h2 with h | h | h | h | ⟨k, k1, k2, h | h⟩ <;> rw [h]
      · exact ⟨_, .etaBar, fun _ => hst' h3, fun j s _ _ => rfl⟩
      · exact ⟨_, .p2, fun _ => hst' h3, fun j s _ _ => rfl⟩
      · exact ⟨_, .B2c, fun _ => hst' h3, fun j s _ _ => rfl⟩
      · exact ⟨_, .B2s, fun _ => hst' h3, fun j s _ _ => rfl⟩
      · refine ⟨_, .R0c k k1 (by omega), fun _ => hst' h3, fun j s _ hs => ?_⟩
        obtain ⟨o, ho, rfl⟩ := hstg j s hs
        simpa [valueAt, stageOf, hR o ho] using k2
      · refine ⟨_, .Z0s k k1 (by omega), fun _ => hst' h3, fun j s _ hs => ?_⟩
        obtain ⟨o, ho, rfl⟩ := hstg j s hs
        simpa [valueAt, stageOf, hZ o ho] using k2

/-- The value found for a place, in the words of the specification. -/
theorem setting_of_wanted (nm : Nat) (ds : List Scanned) (i j : Nat) (x : Slot) (a v : ℝ)
    (h : some v = (wanted nm (paramsOf ds i) j x).or (some a)) : Setting nm ds i j x a v := by
  classical
  unfold wanted at h
  -- the last element of the filtered list
  have key : ∀ (l : List (Scanned × Nat)),
      (((l.map fun y => (⟨y.1.name, y.1.stage, pointValue ds i y.2 y.1⟩ : Param ℝ)).filter fun p =>
        decide (Concerns p.stage j ∧ Names nm p.name x)).map Param.val).getLast? =
      ((l.filter fun y => decide (Concerns y.1.stage j ∧ Names nm y.1.name x)).getLast?).map
        fun y => pointValue ds i y.2 y.1 := by
    intro l
    rw [List.filter_map, List.map_map, List.getLast?_map]
    rfl
  rw [paramsOf, key] at h
  cases hg : (ds.zipIdx.filter fun y =>
      decide (Concerns y.1.stage j ∧ Names nm y.1.name x)).getLast? with
  | none =>
    rw [hg] at h
    right
    rw [List.getLast?_eq_none_iff, List.filter_eq_nil_iff] at hg
    refine ⟨fun d hd => ?_, by simpa using h⟩
    obtain ⟨k, hk⟩ := List.getElem?_of_mem hd
    simpa using hg (d, k) (List.mem_zipIdx_iff_getElem?.2 hk)
  | some y =>
    rw [hg] at h
    left
    obtain ⟨d, k⟩ := y
    have hy := List.mem_of_getLast? hg
    rw [List.mem_filter] at hy
    have hk := List.mem_zipIdx_iff_getElem?.1 hy.1
    refine ⟨k, d, hk, by simpa using hy.2, ?_, by simpa using h⟩
    intro k' d' hkk hd' hc
    -- (d', k') comes later in the filtered list
    obtain ⟨l1, e⟩ := List.getLast?_eq_some_iff.1 hg
    have hsorted : (ds.zipIdx.filter fun y =>
        decide (Concerns y.1.stage j ∧ Names nm y.1.name x)).Pairwise fun a b => a.2 < b.2 := by
      refine List.Pairwise.filter _ ?_
      have := List.pairwise_lt_range' (s := 0) (n := ds.length) (step := 1)
      rw [← List.zipIdx_map_snd 0 ds, List.pairwise_map] at this
      exact this
    have hm : (d', k') ∈ ds.zipIdx.filter fun y =>
        decide (Concerns y.1.stage j ∧ Names nm y.1.name x) := by
      rw [List.mem_filter]
      exact ⟨List.mem_zipIdx_iff_getElem?.2 hd', by simpa using hc⟩
    rw [e] at hm hsorted
    rw [List.pairwise_append] at hsorted
    rcases List.mem_append.1 hm with hm | hm
    · have := hsorted.2.2 _ hm (d, k) (by simp)
      simp only at this
      omega
    · simp only [List.mem_singleton, Prod.mk.injEq] at hm
      omega

theorem settings_typed {o : Obj ℝ} (h : Typed optDoc o) {m : String} (hm : m ∈ settings) :
    ∃ a, o m = some (.flt a) := by
  have : ∀ m ∈ settings, m ∈ ["target_iota", "target_axis_length", "min_R0", "max_d2_volume_d_psi2",
     "min_DMerc_times_r2", "weight_B20", "weight_iota", "weight_elongation", "weight_curvature",
     "weight_R0", "weight_d2_volume_d_psi2", "weight_DMerc_times_r2", "weight_XY2",
     "weight_XY2Prime", "weight_XY2PrimePrime", "weight_Z2", "weight_Z2Prime", "weight_XY3",
     "weight_XY3Prime", "weight_XY3PrimePrime", "weight_grad_B", "weight_grad_grad_B",
     "weight_r_singularity", "weight_axis_length", "weight_standard_deviation_of_R",
     "weight_B20_mean"] := by decide
  obtain ⟨v, e, a, rfl⟩ := h .flt m ⟨_, by simp [optDoc], this m hm⟩
  exact ⟨a, e⟩

/-- One stage after the parameters were set. -/
theorem stageAt_of (nm : Nat) (ds : List Scanned) (i j : Nat) (o : OptObj ℝ) (s : Stage ℝ)
    (ht : Typed optDoc o.mem)
    (h : ∀ x, valueAt s x = (wanted nm (paramsOf ds i) j x).or (valueAt (stageOf o) x))
    (hw : ∀ x, (wanted nm (paramsOf ds i) j x).isSome → (valueAt (stageOf o) x).isSome) :
    StageAt nm ds i j o (withStage o s) := by
  have hnum : ∀ x, Setting nm ds i j (.num x) ((stageOf o).num x) (s.num x) := fun x =>
    setting_of_wanted nm ds i j _ _ _ (h (.num x))
  have hsome : ∀ x, (valueAt s x).isSome = (valueAt (stageOf o) x).isSome := by
    intro x
    rw [h x]
    cases e : wanted nm (paramsOf ds i) j x with
    | none => rfl
    | some v => rw [hw x (by rw [e]; rfl)]; rfl
  have hlen : ∀ {l l' : List ℝ}, (∀ k : Nat, (l[k]?).isSome = (l'[k]?).isSome) →
      l.length = l'.length := by
    intro l l' hk
    rcases Nat.lt_trichotomy l.length l'.length with hc | hc | hc
    · have := hk l.length
      simp [hc] at this
    · exact hc
    · have := hk l'.length
      simp [hc] at this
  have harr : ∀ (sl : Nat → Slot) (l l' : List ℝ), (∀ k, valueAt s (sl k) = l'[k]?) →
      (∀ k, valueAt (stageOf o) (sl k) = l[k]?) → ∀ k a v, l[k]? = some a → l'[k]? = some v →
        Setting nm ds i j (sl k) a v := by
    intro sl l l' h1 h2 k a v ha hv
    refine setting_of_wanted nm ds i j _ _ _ ?_
    have := h (sl k)
    rwa [h1, h2, ha, hv] at this
  refine ⟨fun m hm => ?_, fun m hm => ?_, rfl, hnum "q.eta_bar", hnum "q.p2", hnum "q.B2c",
    hnum "q.B2s", ⟨hlen fun k => hsome (.R0c k), harr .R0c _ _ (fun _ => rfl) fun _ => rfl⟩,
    ⟨hlen fun k => hsome (.Z0s k), harr .Z0s _ _ (fun _ => rfl) fun _ => rfl⟩, rfl⟩
  · obtain ⟨a, ha⟩ := settings_typed ht hm
    refine ⟨a, s.num m, ha, by simp [withStage, (mem_settings m).2 hm], ?_⟩
    have hq : ∀ x ∈ settings, ¬ (x = "q.eta_bar" ∨ x = "q.p2" ∨ x = "q.B2c" ∨ x = "q.B2s") := by
      decide
    have hq := hq m hm
    have e : (stageOf o).num m = a := by
      simp only [not_or] at hq
      simp [stageOf, hq, getFlt, ha]
    rw [← e]
    exact hnum m
  · simp [withStage, (mem_settings m).not.2 hm]

/-- All stages of grid point `i`. -/
theorem stagesAt_of (N : Nat) (r : MultiScanObj ℝ) (p : Plan) (ds : List Scanned) (i : Nat)
    (ht : ∀ o ∈ r.ref.opts, Typed optDoc o.mem) (hp : paramsAt p i = .ok (paramsOf ds i))
    (hne : r.ref.opts ≠ []) (hnm : N ≤ p.nm) (hR : ∀ o ∈ r.ref.opts, o.q.R0c.length = N)
    (hZ : ∀ o ∈ r.ref.opts, o.q.Z0s.length = N) :
    ((∃ os, stagesAt r p i = .ok os) ↔ ∀ d ∈ ds, Scannable N r.ref.opts.length d) ∧
    ∀ os, stagesAt r p i = .ok os → os.length = r.ref.opts.length ∧
      ∀ j o o', r.ref.opts[j]? = some o → os[j]? = some o' → StageAt p.nm ds i j o o' := by
  classical
  have hacc : (∀ q ∈ paramsOf ds i, Accepts p.nm (r.ref.opts.map stageOf) q) ↔
      ∀ d ∈ ds, Scannable N r.ref.opts.length d := by
    unfold paramsOf
    rw [List.forall_mem_map]
    constructor
    · intro h d hd
      obtain ⟨k, hk⟩ := List.getElem?_of_mem hd
      exact (accepts_iff N p.nm _ hne hnm hR hZ d _).1
        (h (d, k) (List.mem_zipIdx_iff_getElem?.2 hk))
    · rintro h ⟨d, k⟩ hk
      exact (accepts_iff N p.nm _ hne hnm hR hZ d _).2
        (h d (List.mem_of_getElem? (List.mem_zipIdx_iff_getElem?.1 hk)))
  unfold stagesAt
  rw [hp]
  simp only [Except.bind]
  cases hs : setAll p.nm (r.ref.opts.map stageOf) (paramsOf ds i) with
  | error e =>
    refine ⟨⟨by simp [lift], fun h => ?_⟩, by simp [lift]⟩
    obtain ⟨ss, h'⟩ := (setAll_ok_iff _ _ _).2 (hacc.2 h)
    rw [hs] at h'; cases h'
  | ok ss =>
    have hA := (setAll_ok_iff _ _ _).1 ⟨ss, hs⟩
    refine ⟨⟨fun _ => hacc.1 hA, fun _ => ⟨_, rfl⟩⟩, fun os h => ?_⟩
    simp only [lift, Except.ok.injEq] at h
    subst h
    obtain ⟨a1, a2⟩ := all_exact _ _ _ _ hs
    rw [List.length_map] at a1
    refine ⟨by simp [a1], fun j o o' ho ho' => ?_⟩
    obtain ⟨s', hs', hv⟩ := a2 j (stageOf o) (by rw [List.getElem?_map, ho]; rfl)
    rw [List.getElem?_zipWith, ho, hs'] at ho'
    simp only [Option.some.injEq] at ho'
    subst ho'
    refine stageAt_of p.nm ds i j o s' (ht o (List.mem_of_getElem? ho)) hv fun x hx => ?_
    unfold wanted at hx
    obtain ⟨v, hv⟩ := Option.isSome_iff_exists.1 hx
    obtain ⟨q, hq, -⟩ := List.mem_map.1 (List.mem_of_getLast? hv)
    rw [List.mem_filter] at hq
    have hq2 := of_decide_eq_true hq.2
    rcases (hA q hq.1).named with e | ⟨sl, n1, -, n3⟩
    · exact absurd (List.map_eq_nil_iff.1 e) hne
    · obtain rfl := Names.unique hq2.2 n1
      exact n3 j _ hq2.1 (by rw [List.getElem?_map, ho]; rfl)

/-! ## Running the stages -/

theorem StageAt.typed {nm : Nat} {ds : List Scanned} {i j : Nat} {o o' : OptObj ℝ}
    (h : StageAt nm ds i j o o') (ht : Typed optDoc o.mem) : Typed optDoc o'.mem := by
  intro κ k hk
  by_cases hm : k ∈ settings
  · obtain ⟨a, v, e, e', -⟩ := h.settings k hm
    obtain ⟨y, e2, hy⟩ := ht κ k hk
    rw [e] at e2; cases e2
    refine ⟨_, e', ?_⟩
    cases κ <;> obtain ⟨b, hb⟩ := hy <;> cases hb
    exact ⟨v, rfl⟩
  · rw [h.members k hm]; exact ht κ k hk

theorem StageAt.raw {nm : Nat} {ds : List Scanned} {i j : Nat} {o o' : OptObj ℝ}
    (h : StageAt nm ds i j o o') {s : Raw} (hr : IsRaw o'.mem s) : IsRaw o.mem s := by
  obtain ⟨a1, a2, a3, a4, a5, a6, a7, a8, a9, a10, a11⟩ := hr
  have e := h.members
  refine ⟨?_, ?_, ?_, ?_, ?_, ?_, ?_, ?_, ?_, ?_, ?_⟩ <;> rw [← e _ (by decide)] <;> assumption

theorem StageAt.refine {nm : Nat} {ds : List Scanned} {i j : Nat} {o o' : OptObj ℝ}
    (h : StageAt nm ds i j o o') : refineOf o' = refineOf o := by
  unfold refineOf
  rw [h.members _ (by decide)]

theorem StageAt.config {nm : Nat} {ds : List Scanned} {i j : Nat} {o o' : OptObj ℝ}
    (h : StageAt nm ds i j o o') {N : Nat} (hq : Spec.OptLoop.AllSize N (configOf o.q)) :
    Spec.OptLoop.AllSize N (configOf o'.q) := by
  have e := h.others
  obtain ⟨a, b, c, d⟩ := hq
  have e1 : o'.q.R0s = o.q.R0s := by rw [e]
  have e2 : o'.q.Z0c = o.q.Z0c := by rw [e]
  exact ⟨h.R0c.1.trans a, (congrArg List.length e1).trans b, (congrArg List.length e2).trans c,
    h.Z0s.1.trans d⟩

/-- What the first stage leaves in its history. -/
structure FirstOut (N : Nat) (s : Raw) (order : String) (q : OptState.Config ℝ)
    (st : OptLoop.St ℝ P) : Prop where
  size : Spec.OptLoop.AllSize (N + s.refine.toNat) st.q
  hist : st.hist = st.log.map some ++ List.replicate (s.maxIter.toNat - st.log.length) none
  le : st.log.length ≤ s.maxIter.toNat
  ran : st.log ≠ [] ↔ order = "r2.1" ∧ 2 ≤ s.maxIter.toNat
  first : ∀ x, st.log.head? = some x → x.q = Spec.OptLoop.grow s.refine.toNat q

theorem runStages_fine (w : Nat → World ℝ P) (os : List (OptObj ℝ)) (o0 : OptObj ℝ)
    (h0 : os[0]? = some o0) (N : Nat) (ht : ∀ o ∈ os, Typed optDoc o.mem) (hs : NaturalSizes os)
    (hn : ∀ o ∈ os, ∀ s, IsRaw o.mem s → s.nphis = [] ∨ s.nphis.length = s.refine.toNat + 1)
    (hq : Spec.OptLoop.AllSize N (configOf o0.q)) :
    Fine (fun res => res.1.length = os.length ∧ res.2 = (res.1.map (·.nEvals)).sum ∧
      (∀ st, res.1[0]? = some st → ∃ s, IsRaw o0.mem s ∧
        FirstOut N s o0.q.order_r_option (configOf o0.q) st) ∧
      ∀ st, res.1.getLast? = some st →
        Spec.OptLoop.AllSize (N + (os.map refineOf).sum) st.q) (runStages w 0 os none 0) := by
  obtain ⟨ss, k1, k2, k3⟩ := runStages_eq w os 0 none 0 fun o ho =>
    ⟨ht o ho, (hs o ho).1, fun s h => ((hs o ho).2 s h).1⟩
  have hget : ∀ (i : Nat) (g : OptLoop.Stage ℝ P), ss[i]? = some g → ∃ o, os[i]? = some o := by
    intro i g hg
    have : i < os.length := by rw [← k1]; exact (List.getElem?_eq_some_iff.1 hg).1
    exact ⟨_, List.getElem?_eq_getElem this⟩
  have hex : ss.map (fun g => g.set.extra) = os.map refineOf := by
    apply List.ext_getElem?
    intro i
    rw [List.getElem?_map, List.getElem?_map]
    cases hg : ss[i]? with
    | none =>
      rw [List.getElem?_eq_none_iff, k1, ← List.getElem?_eq_none_iff] at hg
      rw [hg]; rfl
    | some g =>
      obtain ⟨o, ho⟩ := hget i g hg
      obtain ⟨s, e1, e2⟩ := (k2 i o g ho hg).raw
      rw [ho]
      simp [e2, refineOf, e1.refine]
  have hnp : ∀ g ∈ ss, g.set.nphis = [] ∨ g.set.nphis.length = g.set.extra + 1 := by
    intro g hg
    obtain ⟨i, hi⟩ := List.getElem?_of_mem hg
    obtain ⟨o, ho⟩ := hget i g hi
    obtain ⟨s, e1, e2⟩ := (k2 i o g ho hi).raw
    rw [e2]
    simpa using hn o (List.mem_of_getElem? ho) s e1
  have hpos : 0 < ss.length := by
    rw [k1]; exact (List.getElem?_eq_some_iff.1 h0).1
  have hg0 := List.getElem?_eq_getElem hpos
  have hsafe := runStages_safe ss none 0 N (by
    intro a ha
    rw [hg0] at ha
    simp only [Option.none_or, Option.map_some, Option.some.injEq] at ha
    rw [← ha, (k2 0 o0 _ h0 hg0).start]
    exact hq) hnp
  rw [k3]
  cases hrun : OptLoop.runStages ss none 0 with
  | error e => rw [hrun] at hsafe; exact fine_of_safe (x := .error e) hsafe
  | ok res =>
    rw [hrun] at hsafe
    obtain ⟨sts, total⟩ := res
    obtain ⟨l1, l2⟩ := hsafe
    obtain ⟨m1, m2, m3⟩ := OptLoop.runStages_spec _ _ _ _ _ hrun
    simp only at l1 l2
    refine ⟨l1.trans k1, by simpa using m2, fun st hst => ?_, fun st hst => ?_⟩
    · obtain ⟨a, ha, hao, hopt⟩ := m3 0 _ st hg0 hst
      have hst0 := (k2 0 o0 _ h0 hg0).start
      obtain ⟨s, e1, e2⟩ := (k2 0 o0 _ h0 hg0).raw
      have hord : OptLoop.orderOf ss none = o0.q.order_r_option := by
        unfold OptLoop.orderOf
        rw [hg0]
        simp only [Option.none_or, Option.map_some]
        rw [hst0]; rfl
      have haq : a.q = configOf o0.q := by
        unfold OptLoop.startOf at ha
        rw [hg0] at ha
        rw [if_pos rfl] at ha
        simp only [Option.none_or, Option.map_some, Option.some.injEq] at ha
        rw [← ha, hst0]
      rw [hord, haq] at hopt
      have hout := OptLoop.optimize_safe ss[0].env ss[0].set o0.q.order_r_option (configOf o0.q)
        a.nphi N hq (hnp _ (List.getElem_mem hpos))
      rw [hopt] at hout
      obtain ⟨-, ho⟩ := hout
      rw [e2] at ho
      exact ⟨s, e1, ho.size, by have := ho.hist.hist; rw [← ho.hist.len] at this; exact this,
        by have := ho.hist.le; rw [← ho.hist.len] at this; exact this, ho.ran,
        fun x hx => (ho.first x hx).1⟩
    · have hlast : sts[sts.length - 1]? = some st := by
        rw [← List.getLast?_eq_getElem?]; exact hst
      have hlt : sts.length - 1 < ss.length := by omega
      have := (l2 (sts.length - 1) _ st (List.getElem?_eq_getElem hlt) hlast).2
      rw [show sts.length - 1 + 1 = ss.length by omega, List.take_length, hex] at this
      exact this

end Qsc.MultiScanPipeline
