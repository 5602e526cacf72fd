import Verif.Lemmas.MultiScanPipeline
import Verif.Props.MultiScan

/-!
# Properties C78, C79: a scan of multi-stage optimizations from an input file
-/

namespace Qsc.MultiScanPipeline

open Qsc.Sections Qsc.Pipeline Qsc.Spec.Sections Qsc.Spec.Pipeline Qsc.Spec.MultiScanPipeline
open Qsc.ScanParams Qsc.Spec.ScanParams

variable {P : Type}

/-- Facts about an accepted file. -/
structure Accepted (lit : String → ℝ) (single : Bool) (f : File ℝ) (r : MultiScanObj ℝ) : Prop where
  wellFormed : WellFormed f
  read : multiScanInput (fun z => (z : ℝ)) 0 f (optNew lit single) (multiScanNew lit) = .ok r

namespace Accepted

variable {lit : String → ℝ} {single : Bool} {f : File ℝ} {r : MultiScanObj ℝ}

theorem typed (h : Accepted lit single f r) :
    Typed multiScanDoc r.mem ∧ ∀ o ∈ r.ref.opts, Typed optDoc o.mem :=
  have := (initialised (fun z => (z : ℝ)) 0 lit single f h.wellFormed).2.2.2 r h.read
  ⟨this.1, this.2.2⟩

theorem ref (h : Accepted lit single f r) :
    multioptInput (fun z => (z : ℝ)) 0 f (optNew lit single) multioptNew = .ok r.ref :=
  ((multiScanInput_iff _ 0 f h.wellFormed _ _ r).1 h.read).1

theorem stage (h : Accepted lit single f r) {j : Nat} {o : OptObj ℝ} (ho : r.ref.opts[j]? = some o) :
    ∃ d, optInput (fun z => (z : ℝ)) 0 f d = .ok o := by
  obtain ⟨t, n, -, -, -, -, -, hst⟩ := (multioptInput_iff _ 0 f h.wellFormed _ _ _).1 h.ref
  exact ⟨_, hst j o ho⟩

theorem nonempty (h : Accepted lit single f r) : r.ref.opts ≠ [] := by
  obtain ⟨t, n, -, -, h1, -, h2, -⟩ := (multioptInput_iff _ 0 f h.wellFormed _ _ _).1 h.ref
  intro e
  rw [e] at h2
  simp at h2
  omega

theorem sizes (h : Accepted lit single f r) {o o' : OptObj ℝ} (ho : o ∈ r.ref.opts)
    (ho' : o' ∈ r.ref.opts) : Spec.OptLoop.AllSize o'.q.R0c.length (configOf o.q) := by
  obtain ⟨j, hj⟩ := List.getElem?_of_mem ho
  obtain ⟨d, hd⟩ := h.stage hj
  rw [← same_start _ 0 f h.wellFormed _ _ r.ref h.ref o o' ho ho']
  exact (opt_sizes _ 0 f h.wellFormed _ _ hd).1

theorem nphis (h : Accepted lit single f r) (hs : NaturalSizes r.ref.opts) {o : OptObj ℝ}
    (ho : o ∈ r.ref.opts) {s : Raw} (hr : IsRaw o.mem s) :
    s.nphis = [] ∨ s.nphis.length = s.refine.toNat + 1 := by
  obtain ⟨j, hj⟩ := List.getElem?_of_mem ho
  obtain ⟨d, hd⟩ := h.stage hj
  obtain ⟨n1, n2⟩ := (hs o ho).2 s hr
  rcases optInput_nphi _ 0 f h.wellFormed _ _ hd _ _ hr.nphis hr.refine n2
    (by have := n1.refine.1; omega) n1.refine.2 with h | h
  · exact Or.inl h
  · right; have := n1.refine.1; omega

end Accepted

/-! ## C78: from the file to the stages of a grid point -/

/-- The six arrays of an accepted file describe one list of scanned parameters, and only one. -/
theorem scanned (lit : String → ℝ) (single : Bool) (f : File ℝ) (r : MultiScanObj ℝ)
    (h : Accepted lit single f r) : ∃ ds, IsScanned r.mem ds ∧ ds.length = r.ndim ∧
      ∀ ds', IsScanned r.mem ds' → ds' = ds := by
  obtain ⟨-, t, -, -, hl⟩ := (multiScanInput_iff _ 0 f h.wellFormed _ _ r).1 h.read
  obtain ⟨ds, h1, h2⟩ := scanned_exists h.typed.1 hl
  refine ⟨ds, h1, h2, fun ds' h' => ?_⟩
  obtain ⟨a1, a2, a3, a4, a5, a6⟩ := h1
  obtain ⟨b1, b2, b3, b4, b5, b6⟩ := h'
  rw [a1] at b1; rw [a2] at b2; rw [a3] at b3; rw [a4] at b4; rw [a5] at b5; rw [a6] at b6
  simp only [Option.some.injEq, Val.strs.injEq, Val.ints.injEq, Val.bools.injEq,
    Val.flts.injEq] at b1 b2 b3 b4 b5 b6
  have e : ∀ {α : Type} (g : Scanned → α), ds.map g = ds'.map g → ∀ k : Nat,
      (ds[k]?).map g = (ds'[k]?).map g := by
    intro α g hg k
    rw [← List.getElem?_map, ← List.getElem?_map, hg]
  apply List.ext_getElem?
  intro k
  have c1 := e _ b1 k; have c2 := e _ b2 k; have c3 := e _ b3 k
  have c4 := e _ b4 k; have c5 := e _ b5 k; have c6 := e _ b6 k
  cases hx : ds[k]? <;> cases hy : ds'[k]? <;> rw [hx, hy] at c1 c2 c3 c4 c5 c6 <;> simp at *
  rename_i x y
  obtain ⟨_, _, _, _, _, _⟩ := x
  obtain ⟨_, _, _, _, _, _⟩ := y
  simp_all

/-- A scan of an accepted file with non-negative sizes starts if and only if every scanned parameter
has at least two values; the number of grid points is the product of these numbers, and the number
of modes in the output is that of the file plus all `fourier_refine`. -/
theorem init_iff (lit : String → ℝ) (single : Bool) (f : File ℝ) (r : MultiScanObj ℝ)
    (h : Accepted lit single f r) (hs : NaturalSizes r.ref.opts) (ds : List Scanned)
    (hd : IsScanned r.mem ds) :
    ((∃ p, init r = .ok p) ↔ ∀ d ∈ ds, 2 ≤ d.n) ∧
    (¬ (∀ d ∈ ds, 2 ≤ d.n) → ∃ m, init r = .error (.throw m)) ∧
    ∀ p, init r = .ok p → p.total = points ds ∧
      ∀ o, r.ref.opts[0]? = some o → p.nm = o.q.R0c.length + (r.ref.opts.map refineOf).sum := by
  obtain ⟨ds', hd', hn, hu⟩ := scanned lit single f r h
  obtain rfl := hu ds hd
  have hpos : 0 < r.ref.opts.length := List.length_pos_iff.2 h.nonempty
  have h0 := List.getElem?_eq_getElem hpos
  have hax := axisCount_eq r.ref.opts h.typed.2 hs _ h0
  have hall : (∀ x ∈ (ds.map dimOf).map Dim.grid, 2 ≤ x.n) ↔ ∀ d ∈ ds, 2 ≤ d.n := by
    simp [dimOf]
  obtain ⟨g1, g2⟩ := ScanGrid.init_ok_iff ((ds.map dimOf).map Dim.grid)
  unfold init
  rw [← hn, dims_eq hd]
  simp only [Except.bind]
  rw [← hall, ← g1]
  cases hg : ScanGrid.init ((ds.map dimOf).map Dim.grid) with
  | error e => simp [lift]
  | ok g =>
    simp only [lift, hax]
    refine ⟨⟨fun _ => ⟨_, rfl⟩, fun _ => ⟨_, rfl⟩⟩, fun hc => absurd ⟨_, rfl⟩ hc, ?_⟩
    intro p hp
    simp only [Except.ok.injEq] at hp
    subst hp
    refine ⟨?_, fun o ho => ?_⟩
    · have := (g2 g.1 g.2 hg).1
      rw [List.map_map, List.map_map] at this
      exact this
    · rw [h0] at ho
      cases ho
      rfl

theorem plan_params (lit : String → ℝ) (single : Bool) (f : File ℝ) (r : MultiScanObj ℝ)
    (h : Accepted lit single f r) (hs : NaturalSizes r.ref.opts) (ds : List Scanned)
    (hd : IsScanned r.mem ds) (hp : Positive ds) (p : Plan) (hi : init r = .ok p) (i : Nat) :
    paramsAt p i = .ok (paramsOf ds i) := by
  obtain ⟨ds', hd', hn, hu⟩ := scanned lit single f r h
  obtain rfl := hu ds hd
  have h2 := (init_iff lit single f r h hs ds hd).1.1 ⟨p, hi⟩
  obtain ⟨g1, g2⟩ := ScanGrid.init_ok_iff ((ds.map dimOf).map Dim.grid)
  unfold init at hi
  rw [← hn, dims_eq hd] at hi
  simp only [Except.bind] at hi
  cases hg : ScanGrid.init ((ds.map dimOf).map Dim.grid) with
  | error e => rw [hg] at hi; simp [lift] at hi
  | ok g =>
    rw [hg] at hi
    simp only [lift] at hi
    cases hax : axisCount r.ref.opts with
    | error e => rw [hax] at hi; simp at hi
    | ok nm =>
      rw [hax] at hi
      simp only [Except.ok.injEq] at hi
      subst hi
      refine paramsAt_eq ds hp h2 _ rfl ?_ i
      rw [(g2 g.1 g.2 hg).2, List.map_map]
      rfl

/-- **C78.** The parameters of any grid point can be set if and only if each of them can be scanned;
then the stages are those of the file in which exactly the places named by scanned parameters are
replaced by the values of the grid point. -/
theorem stages_of_point (lit : String → ℝ) (single : Bool) (f : File ℝ) (r : MultiScanObj ℝ)
    (h : Accepted lit single f r) (hs : NaturalSizes r.ref.opts) (ds : List Scanned)
    (hd : IsScanned r.mem ds) (hp : Positive ds) (p : Plan) (hi : init r = .ok p) (o0 : OptObj ℝ)
    (h0 : r.ref.opts[0]? = some o0) (i : Nat) :
    ((∃ os, stagesAt r p i = .ok os) ↔
      ∀ d ∈ ds, Scannable o0.q.R0c.length r.ref.opts.length d) ∧
    ∀ os, stagesAt r p i = .ok os → os.length = r.ref.opts.length ∧
      ∀ j o o', r.ref.opts[j]? = some o → os[j]? = some o' → StageAt p.nm ds i j o o' := by
  have hnm := ((init_iff lit single f r h hs ds hd).2.2 p hi).2 o0 h0
  refine stagesAt_of o0.q.R0c.length r p ds i h.typed.2
    (plan_params lit single f r h hs ds hd hp p hi i) h.nonempty (by omega) ?_ ?_
  · intro o ho; exact (h.sizes ho (List.mem_of_getElem? h0)).R0c
  · intro o ho; exact (h.sizes ho (List.mem_of_getElem? h0)).Z0s

/-- The combinations of values: every choice of one value per parameter belongs to exactly one grid
point. -/
theorem points_exact (ds : List Scanned) (h2 : ∀ d ∈ ds, 2 ≤ d.n) (cs : List Nat)
    (hc : List.Forall₂ (fun d c => c < d.n.toNat) ds cs) :
    ∃ i, i < points ds ∧
      (∀ k d c, ds[k]? = some d → cs[k]? = some c → coordinate ds k i d.n.toNat = c) ∧
      ∀ i', i' < points ds →
        (∀ k d c, ds[k]? = some d → cs[k]? = some c → coordinate ds k i' d.n.toNat = c) → i' = i := by
  have hpos : ∀ n ∈ ds.map (fun d => d.n.toNat), 0 < n := by
    intro n hn
    obtain ⟨d, hd, rfl⟩ := List.mem_map.1 hn
    have := h2 d hd
    omega
  have hr : ScanGrid.InRange (ds.map fun d => d.n.toNat) cs := by
    unfold ScanGrid.InRange
    rw [List.forall₂_map_left_iff]
    exact hc
  obtain ⟨u1, u2, u3⟩ := ScanGrid.decode_unique _ _ hr
  have hget : ∀ i k d, ds[k]? = some d → (ScanGrid.decode (ds.map fun d => d.n.toNat) i)[k]? =
      some (coordinate ds k i d.n.toNat) := by
    intro i k d hd
    rw [decode_get _ hpos i k d.n.toNat (by rw [List.getElem?_map, hd]; rfl), coordinate, points,
      List.map_drop]
  refine ⟨_, u1, fun k d c hd hc' => ?_, fun i' hi' hk => u3 i' hi' ?_⟩
  · have := hget (ScanGrid.position (ds.map fun d => d.n.toNat) cs) k d hd
    rw [u2, hc'] at this
    exact (Option.some.inj this).symm
  · have hl := (ScanGrid.decode_spec _ hpos i').1.length_eq
    apply List.ext_getElem?
    intro k
    cases hd : ds[k]? with
    | none =>
      have hk : ds.length ≤ k := List.getElem?_eq_none_iff.1 hd
      rw [List.length_map] at hl
      rw [List.getElem?_eq_none (by omega), List.getElem?_eq_none (by have := hc.length_eq; omega)]
    | some d =>
      have hk' : k < cs.length := by
        rw [← hc.length_eq]; exact (List.getElem?_eq_some_iff.1 hd).1
      rw [hget i' k d hd, hk k d _ hd (List.getElem?_eq_getElem hk'), List.getElem?_eq_getElem hk']

/-! ## C79: results -/

theorem getLast_index {α : Type} (l : List α) (a : α) (h : l.getLast? = some a) :
    l[l.length - 1]? = some a := by
  rw [← List.getLast?_eq_getElem?]; exact h

/-- The stages of a grid point and their run. -/
theorem prepared (w : Nat → World ℝ P) (lit : String → ℝ) (single : Bool)
    (f : File ℝ) (r : MultiScanObj ℝ) (h : Accepted lit single f r)
    (hs : NaturalSizes r.ref.opts) (ds : List Scanned) (hd : IsScanned r.mem ds) (hp : Positive ds)
    (p : Plan) (hi : init r = .ok p) (o0 o1 : OptObj ℝ) (h0 : r.ref.opts[0]? = some o0)
    (h1 : r.ref.opts.getLast? = some o1)
    (hsc : ∀ d ∈ ds, Scannable o0.q.R0c.length r.ref.opts.length d) (i : Nat) :
    ∃ os p0 p1, stagesAt r p i = .ok os ∧ os.length = r.ref.opts.length ∧ 0 < os.length ∧
      os[0]? = some p0 ∧ os.getLast? = some p1 ∧ StageAt p.nm ds i 0 o0 p0 ∧
      StageAt p.nm ds i (r.ref.opts.length - 1) o1 p1 ∧
      p.nm = o0.q.R0c.length + (r.ref.opts.map refineOf).sum ∧
      os.map refineOf = r.ref.opts.map refineOf ∧
      Fine (fun res => res.1.length = os.length ∧ res.2 = (res.1.map (·.nEvals)).sum ∧
        (∀ st, res.1[0]? = some st → ∃ s, IsRaw p0.mem s ∧
          FirstOut o0.q.R0c.length s p0.q.order_r_option (configOf p0.q) st) ∧
        ∀ st, res.1.getLast? = some st →
          Spec.OptLoop.AllSize (o0.q.R0c.length + (os.map refineOf).sum) st.q)
        (runStages w 0 os none 0) := by
  obtain ⟨a1, a2⟩ := stages_of_point lit single f r h hs ds hd hp p hi o0 h0 i
  obtain ⟨os, hos⟩ := a1.2 hsc
  obtain ⟨hlen, hst⟩ := a2 os hos
  have hnm := ((init_iff lit single f r h hs ds hd).2.2 p hi).2 o0 h0
  have hback : ∀ (j : Nat) o', os[j]? = some o' → ∃ o, r.ref.opts[j]? = some o ∧
      StageAt p.nm ds i j o o' := by
    intro j o' ho'
    have hj : j < r.ref.opts.length := by rw [← hlen]; exact (List.getElem?_eq_some_iff.1 ho').1
    exact ⟨_, List.getElem?_eq_getElem hj, hst j _ o' (List.getElem?_eq_getElem hj) ho'⟩
  have hmemb : ∀ o' ∈ os, ∃ j, ∃ o ∈ r.ref.opts, StageAt p.nm ds i j o o' := by
    intro o' ho'
    obtain ⟨j, hj⟩ := List.getElem?_of_mem ho'
    obtain ⟨o, ho, hso⟩ := hback j o' hj
    exact ⟨j, o, List.mem_of_getElem? ho, hso⟩
  have hpos : 0 < r.ref.opts.length := (List.getElem?_eq_some_iff.1 h0).1
  obtain ⟨p0, hp0⟩ : ∃ p0, os[0]? = some p0 := ⟨_, List.getElem?_eq_getElem (by omega)⟩
  obtain ⟨p1, hp1⟩ : ∃ p1, os.getLast? = some p1 := by
    refine ⟨_, (List.getLast?_eq_getElem?).trans (List.getElem?_eq_getElem (by omega))⟩
  have hS0 := hst 0 o0 p0 h0 hp0
  have hS1 : StageAt p.nm ds i (r.ref.opts.length - 1) o1 p1 := by
    refine hst _ o1 p1 (getLast_index _ _ h1) ?_
    rw [← hlen]; exact getLast_index _ _ hp1
  have hfine := runStages_fine w os p0 hp0 o0.q.R0c.length
    (fun o' ho' => by
      obtain ⟨j, o, ho, hso⟩ := hmemb o' ho'
      exact StageAt.typed hso (h.typed.2 o ho))
    (fun o' ho' => by
      obtain ⟨j, o, ho, hso⟩ := hmemb o' ho'
      have : o'.q.nphi = o.q.nphi := by rw [hso.others]
      exact ⟨by rw [this]; exact (hs o ho).1, fun s' hs' => (hs o ho).2 s' (StageAt.raw hso hs')⟩)
    (fun o' ho' s' hs' => by
      obtain ⟨j, o, ho, hso⟩ := hmemb o' ho'
      exact h.nphis hs ho (StageAt.raw hso hs'))
    (StageAt.config hS0 (h.sizes (List.mem_of_getElem? h0) (List.mem_of_getElem? h0)))
  have hrefine : os.map refineOf = r.ref.opts.map refineOf := by
    apply List.ext_getElem?
    intro j
    rw [List.getElem?_map, List.getElem?_map]
    cases hj : os[j]? with
    | none =>
      rw [List.getElem?_eq_none_iff, hlen, ← List.getElem?_eq_none_iff] at hj
      rw [hj]
    | some o' =>
      obtain ⟨o, ho, hso⟩ := hback j o' hj
      rw [ho, Option.map_some, Option.map_some, StageAt.refine hso]
  exact ⟨os, p0, p1, hos, hlen, by omega, hp0, hp1, hS0, hS1, hnm, hrefine, hfine⟩

/-- The evaluation of a grid point never leaves an array if the first stage has room for at least
one iteration; it ends normally or with an exception of an optimization. -/
theorem evaluation (w : Nat → World ℝ P) (look : Look P) (lit : String → ℝ) (single : Bool)
    (f : File ℝ) (r : MultiScanObj ℝ) (h : Accepted lit single f r)
    (hs : NaturalSizes r.ref.opts) (ds : List Scanned) (hd : IsScanned r.mem ds) (hp : Positive ds)
    (p : Plan) (hi : init r = .ok p) (o0 o1 : OptObj ℝ) (h0 : r.ref.opts[0]? = some o0)
    (h1 : r.ref.opts.getLast? = some o1)
    (hsc : ∀ d ∈ ds, Scannable o0.q.R0c.length r.ref.opts.length d) (s : Raw)
    (hr : IsRaw o0.mem s) (hm : 1 ≤ s.maxIter) (i : Nat) :
    FineAt (fun res => Spec.MultiScan.Sized p.nm res ∧
      Result p.nm r.ref.opts.length ds i o0 o1 res ∧
      (o0.q.order_r_option = "r2.1" ∧ 2 ≤ s.maxIter → Initial p.nm ds i o0 res) ∧
      (¬ (o0.q.order_r_option = "r2.1" ∧ 2 ≤ s.maxIter) → NoInitial res))
      (evalIndex w look r p i) := by
  obtain ⟨os, p0, p1, hos, hlen, hpos, hp0, hp1, hS0, hS1, hnm, hrefine, hfine⟩ :=
    prepared w lit single f r h hs ds hd hp p hi o0 o1 h0 h1 hsc i
  have ht1 : Typed optDoc o1.mem := h.typed.2 o1 (List.mem_of_getLast? h1)
  unfold evalIndex
  rw [hos]
  simp only [Except.bind]
  cases hrun : runStages w 0 os none 0 with
  | error e => rw [hrun] at hfine; obtain ⟨m, rfl⟩ := hfine; exact ⟨m, rfl⟩
  | ok res =>
    rw [hrun] at hfine
    obtain ⟨sts, total⟩ := res
    obtain ⟨l1, l2, l3, l4⟩ := hfine
    simp only at l1 l2 l3 l4
    obtain ⟨st0, hst0⟩ : ∃ st, sts[0]? = some st := ⟨_, List.getElem?_eq_getElem (by omega)⟩
    obtain ⟨st1, hst1⟩ : ∃ st, sts.getLast? = some st :=
      ⟨_, (List.getLast?_eq_getElem?).trans (List.getElem?_eq_getElem (by omega))⟩
    obtain ⟨s', hr', F⟩ := l3 st0 hst0
    obtain rfl := isRaw_unique hr (StageAt.raw hS0 hr')
    have hz := l4 st1 hst1
    rw [hrefine, ← hnm] at hz
    have hord : p0.q.order_r_option = o0.q.order_r_option := by rw [hS0.others]
    have hmax : 0 < s.maxIter.toNat := by omega
    have hh : ∃ x, st0.hist[0]? = some x ∧ x = st0.log.head? := by
      rw [F.hist]
      cases hl : st0.log with
      | nil => exact ⟨none, by simp [hmax], rfl⟩
      | cons a l => exact ⟨some a, by simp, rfl⟩
    obtain ⟨x, hx, hx'⟩ := hh
    simp only [lift, finalOf, hp0, hp1, hst0, hst1, hx, need, Except.bind]
    rw [if_neg (by rw [hz.R0c, hz.R0s, hz.Z0c, hz.Z0s]; simp)]
    have hle : o0.q.R0c.length + s.refine.toNat ≤ p.nm := by
      rw [hnm]
      have : refineOf o0 = s.refine.toNat := by simp [refineOf, hr.refine]
      have hmem := List.single_le_sum (l := r.ref.opts.map refineOf) (fun _ _ => Nat.zero_le _)
        (refineOf o0) (List.mem_map.2 ⟨o0, List.mem_of_getElem? h0, rfl⟩)
      omega
    have hrec : ∀ y, x = some y → y.q = Spec.OptLoop.grow s.refine.toNat (configOf p0.q) := by
      intro y hy
      exact F.first y (by rw [← hx', hy])
    have hcfg : Spec.OptLoop.AllSize o0.q.R0c.length (configOf p0.q) :=
      StageAt.config hS0 (h.sizes (List.mem_of_getElem? h0) (List.mem_of_getElem? h0))
    have hlen4 : ∀ v ∈ ["iter_R0c", "iter_R0s", "iter_Z0c", "iter_Z0s"],
        (array p.nm st0 st1 x v).length = o0.q.R0c.length + s.refine.toNat := by
      intro v hv
      simp only [List.mem_cons, List.not_mem_nil, or_false] at hv
      cases hxx : x with
      | none =>
        rcases hv with rfl | rfl | rfl | rfl <;>
          simp [array, iterArr, F.size.R0c]
      | some y =>
        have hy := hrec y hxx
        rcases hv with rfl | rfl | rfl | rfl <;>
          simp [array, iterArr, hy, Spec.OptLoop.grow, hcfg.R0c, hcfg.R0s, hcfg.Z0c, hcfg.Z0s]
    refine ⟨⟨?_, ?_⟩, ⟨?_, ?_, ?_⟩, ?_, ?_⟩
    · intro v hv
      simp only [List.mem_cons, List.not_mem_nil, or_false] at hv
      rcases hv with rfl | rfl | rfl | rfl <;>
        simp [array, hz.R0c, hz.R0s, hz.Z0c, hz.Z0s]
    · intro v hv
      show (array p.nm st0 st1 x v).length ≤ p.nm
      rw [hlen4 v hv]; exact hle
    · have e : scalar look p0 p1 st1 x "q.p2" = p0.q.p2 := by simp [scalar, settingRows]
      show Setting p.nm ds i 0 (.num "q.p2") o0.q.p2 (scalar look p0 p1 st1 x "q.p2")
      rw [e]; exact hS0.p2
    · intro m hmm
      obtain ⟨a, v, e1, e2, e3⟩ := hS1.settings m hmm
      refine ⟨a, e1, ?_⟩
      have hin : ∀ m ∈ settings, m ∈ settingRows := by decide
      have e : scalar look p0 p1 st1 x m = v := by simp [scalar, hin m hmm, getFlt, e2]
      show Setting p.nm ds i (r.ref.opts.length - 1) (.num m) a (scalar look p0 p1 st1 x m)
      rw [e]; exact e3
    · intro m hmm
      have hin : ∀ m ∈ ["weight_curvature", "weight_R0", "min_R0"], m ∈ settingRows ∧ m ∉ settings := by
        decide
      have hty : ∃ b, o1.mem m = some (.flt b) := by
        simp only [List.mem_cons, List.not_mem_nil, or_false] at hmm
        rcases hmm with rfl | rfl | rfl
        · obtain ⟨v, e, b, rfl⟩ := ht1 .flt "weight_curvature" (by simp [Doc.Has, optDoc])
          exact ⟨b, e⟩
        · obtain ⟨v, e, b, rfl⟩ := ht1 .flt "weight_R0" (by simp [Doc.Has, optDoc])
          exact ⟨b, e⟩
        · obtain ⟨v, e, b, rfl⟩ := ht1 .flt "min_R0" (by simp [Doc.Has, optDoc])
          exact ⟨b, e⟩
      obtain ⟨b, hb⟩ := hty
      have e2 := hS1.members m (hin m hmm).2
      have e : scalar look p0 p1 st1 x m = b := by simp [scalar, (hin m hmm).1, getFlt, e2, hb]
      show o1.mem m = some (.flt (scalar look p0 p1 st1 x m))
      rw [e]; exact hb
    · rintro ⟨c1, c2⟩
      have hlog : st0.log ≠ [] := F.ran.2 ⟨by rw [hord]; exact c1, by omega⟩
      obtain ⟨y, hy⟩ : ∃ y, x = some y := by
        rw [hx']
        cases hl : st0.log with
        | nil => exact absurd hl hlog
        | cons a l => exact ⟨a, rfl⟩
      have hyq := hrec y hy
      subst hy
      have hR0s : p0.q.R0s = o0.q.R0s := by rw [hS0.others]
      have hZ0c : p0.q.Z0c = o0.q.Z0c := by rw [hS0.others]
      refine ⟨?_, ?_, ?_, ?_, ?_, ?_, ?_, ?_⟩
      · have : scalar look p0 p1 st1 (some y) "iter_eta_bar" = p0.q.eta_bar := by
          simp [scalar, settingRows, iter0, hyq, Spec.OptLoop.grow, configOf]
        show Setting p.nm ds i 0 (.num "q.eta_bar") o0.q.eta_bar
          (scalar look p0 p1 st1 (some y) "iter_eta_bar")
        rw [this]; exact hS0.eta_bar
      · have : scalar look p0 p1 st1 (some y) "iter_B2c" = p0.q.B2c := by
          simp [scalar, settingRows, iter0, hyq, Spec.OptLoop.grow, configOf]
        show Setting p.nm ds i 0 (.num "q.B2c") o0.q.B2c
          (scalar look p0 p1 st1 (some y) "iter_B2c")
        rw [this]; exact hS0.B2c
      · have : scalar look p0 p1 st1 (some y) "iter_B2s" = p0.q.B2s := by
          simp [scalar, settingRows, iter0, hyq, Spec.OptLoop.grow, configOf]
        show Setting p.nm ds i 0 (.num "q.B2s") o0.q.B2s
          (scalar look p0 p1 st1 (some y) "iter_B2s")
        rw [this]; exact hS0.B2s
      · intro k a ha
        have hk : k < p0.q.R0c.length := by
          rw [hS0.R0c.1]; exact (List.getElem?_eq_some_iff.1 ha).1
        have e : (array p.nm st0 st1 (some y) "iter_R0c").getD k 0 = p0.q.R0c[k] := by
          simp [array, iterArr, hyq, Spec.OptLoop.grow, configOf, List.getElem?_append_left hk, hk]
        show Setting p.nm ds i 0 (.R0c k) a ((array p.nm st0 st1 (some y) "iter_R0c").getD k 0)
        rw [e]
        exact hS0.R0c.2 k a _ ha (List.getElem?_eq_getElem hk)
      · intro k a ha
        have hk : k < p0.q.Z0s.length := by
          rw [hS0.Z0s.1]; exact (List.getElem?_eq_some_iff.1 ha).1
        have e : (array p.nm st0 st1 (some y) "iter_Z0s").getD k 0 = p0.q.Z0s[k] := by
          simp [array, iterArr, hyq, Spec.OptLoop.grow, configOf, List.getElem?_append_left hk, hk]
        show Setting p.nm ds i 0 (.Z0s k) a ((array p.nm st0 st1 (some y) "iter_Z0s").getD k 0)
        rw [e]
        exact hS0.Z0s.2 k a _ ha (List.getElem?_eq_getElem hk)
      · intro k a ha
        show (array p.nm st0 st1 (some y) "iter_R0s").getD k 0 = a
        have hk := (List.getElem?_eq_some_iff.1 ha).1
        simp [array, iterArr, hyq, Spec.OptLoop.grow, configOf, hR0s, List.getElem?_append_left hk, hk,
          (List.getElem?_eq_some_iff.1 ha).2]
      · intro k a ha
        show (array p.nm st0 st1 (some y) "iter_Z0c").getD k 0 = a
        have hk := (List.getElem?_eq_some_iff.1 ha).1
        simp [array, iterArr, hyq, Spec.OptLoop.grow, configOf, hZ0c, List.getElem?_append_left hk, hk,
          (List.getElem?_eq_some_iff.1 ha).2]
      · intro v hv k hk
        have hzero : ∀ l : List ℝ, l.length = o0.q.R0c.length →
            (l ++ List.replicate s.refine.toNat 0).getD k 0 = 0 := by
          intro l hl
          rw [List.getD_eq_getElem?_getD, List.getElem?_append_right (by omega),
            List.getElem?_replicate]
          split <;> rfl
        show (array p.nm st0 st1 (some y) v).getD k 0 = 0
        simp only [List.mem_cons, List.not_mem_nil, or_false] at hv
        rcases hv with rfl | rfl | rfl | rfl <;>
          simp only [array, iterArr, hyq, Spec.OptLoop.grow, Option.elim] <;>
          simp only [if_true, if_false, String.reduceEq]
        · exact hzero _ hcfg.R0c
        · exact hzero _ hcfg.R0s
        · exact hzero _ hcfg.Z0c
        · exact hzero _ hcfg.Z0s
    · intro hc
      have hlog : st0.log = [] := by
        by_contra hl
        obtain ⟨c1, c2⟩ := F.ran.1 hl
        exact hc ⟨by rw [← hord]; exact c1, by omega⟩
      have hxn : x = none := by rw [hx', hlog]; rfl
      subst hxn
      refine ⟨?_, ?_⟩
      · intro v hv
        show scalar look p0 p1 st1 none v = 0
        simp only [List.mem_cons, List.not_mem_nil, or_false] at hv
        rcases hv with rfl | rfl | rfl <;> simp [scalar, settingRows, iter0]
      · intro v hv k
        show (array p.nm st0 st1 none v).getD k 0 = 0
        have hz : ∀ n : Nat, (List.replicate n (0 : ℝ)).getD k 0 = 0 := by
          intro n
          rw [List.getD_eq_getElem?_getD, List.getElem?_replicate]
          split <;> rfl
        simp only [List.mem_cons, List.not_mem_nil, or_false] at hv
        rcases hv with rfl | rfl | rfl | rfl <;>
          simp only [array, iterArr, Option.elim, if_true, if_false, String.reduceEq] <;>
          exact hz _

/-- If the first stage has room for no iteration at all, reading its initial condition leaves the
array: no grid point can end normally. -/
theorem no_iterations (w : Nat → World ℝ P) (look : Look P) (lit : String → ℝ) (single : Bool)
    (f : File ℝ) (r : MultiScanObj ℝ) (h : Accepted lit single f r)
    (hs : NaturalSizes r.ref.opts) (ds : List Scanned) (hd : IsScanned r.mem ds) (hp : Positive ds)
    (p : Plan) (hi : init r = .ok p) (o0 : OptObj ℝ) (h0 : r.ref.opts[0]? = some o0)
    (hsc : ∀ d ∈ ds, Scannable o0.q.R0c.length r.ref.opts.length d) (s : Raw)
    (hr : IsRaw o0.mem s) (hm : s.maxIter = 0) (i : Nat) :
    evalIndex w look r p i = .error (.undefined "iter_eta_bar[0]") ∨
      ∃ m, evalIndex w look r p i = .error (.run (.run (.throw m))) := by
  obtain ⟨o1, h1⟩ : ∃ o1, r.ref.opts.getLast? = some o1 :=
    ⟨_, (List.getLast?_eq_getElem?).trans (List.getElem?_eq_getElem (by
      have := List.length_pos_iff.2 h.nonempty; omega))⟩
  obtain ⟨os, p0, p1, hos, hlen, hpos, hp0, hp1, hS0, hS1, hnm, hrefine, hfine⟩ :=
    prepared w lit single f r h hs ds hd hp p hi o0 o1 h0 h1 hsc i
  unfold evalIndex
  rw [hos]
  simp only [Except.bind]
  cases hrun : runStages w 0 os none 0 with
  | error e => rw [hrun] at hfine; obtain ⟨m, rfl⟩ := hfine; exact Or.inr ⟨m, rfl⟩
  | ok res =>
    rw [hrun] at hfine
    obtain ⟨sts, total⟩ := res
    obtain ⟨l1, l2, l3, l4⟩ := hfine
    simp only at l1 l2 l3 l4
    obtain ⟨st0, hst0⟩ : ∃ st, sts[0]? = some st := ⟨_, List.getElem?_eq_getElem (by omega)⟩
    obtain ⟨st1, hst1⟩ : ∃ st, sts.getLast? = some st :=
      ⟨_, (List.getLast?_eq_getElem?).trans (List.getElem?_eq_getElem (by omega))⟩
    obtain ⟨s', hr', F⟩ := l3 st0 hst0
    obtain rfl := isRaw_unique hr (StageAt.raw hS0 hr')
    have hle := F.le
    have hh := F.hist
    rw [hm] at hle hh
    have hl : st0.log = [] := List.length_eq_zero_iff.1 (by simpa using hle)
    rw [hl] at hh
    left
    simp [lift, finalOf, hp0, hp1, hst0, hst1, hh, need, Except.bind]

/-! ### The whole scan -/

/-- The filters are those of the file. -/
theorem cfgOf_file (lit : String → ℝ) (single : Bool) (f : File ℝ) (r : MultiScanObj ℝ)
    (h : Accepted lit single f r) : ∃ c, cfgOf r.mem = .ok c ∧
      r.mem "keep_all" = some (.bool c.keepAll) ∧
      ∀ x ∈ thresholds, r.mem x = some (.flt (c.thr x)) := by
  have ht := h.typed.1
  obtain ⟨v, e, b, rfl⟩ := ht .bool "keep_all" (by simp [Doc.Has, multiScanDoc])
  refine ⟨⟨b, fun x => (getFlt r.mem x).getD 0⟩, ?_, e, ?_⟩
  · simp [cfgOf, getBool, e, need, Except.bind]
  · intro x hx
    have hin : ∀ x ∈ thresholds, ∃ l, (Kind.flt, l) ∈ multiScanDoc ∧ x ∈ l := by
      intro x hx
      refine ⟨_, by simp only [multiScanDoc, List.mem_cons, reduceCtorEq, Prod.mk.injEq,
        false_and, false_or, true_and, List.not_mem_nil, or_false]; rfl, ?_⟩
      revert x
      decide
    obtain ⟨v, e, b, rfl⟩ := ht .flt x (hin x hx)
    simp [getFlt, e]

theorem scan_rows : (∀ m ∈ settings, ("scan_" ++ m, m) ∈ Spec.MultiScan.meaning) := by
  decide +kernel

theorem column_of {nm n : Nat} (o : MultiScan.Ops ℝ) (cfg : MultiScan.Cfg ℝ)
    (res : Nat → MultiScan.Final ℝ) (time : Nat → ℝ)
    (hres : ∀ i, i < n → Spec.MultiScan.Sized nm (res i)) (idx : List Nat) (hidx : ∀ i ∈ idx, i < n)
    (name src : String) (hx : (name, src) ∈ Spec.MultiScan.meaning) (Q : Nat → ℝ → Prop)
    (hQ : ∀ i, i < n → Q i ((res i).get src)) :
    Column (idx.map (MultiScan.column o cfg 0 nm res time)) name idx Q :=
  ⟨fun i => (res i).get src,
    MultiScan.saved_scalar o cfg 0 nm res time (name, src) hx idx fun i hi => hres i (hidx i hi),
    fun i hi => hQ i (hidx i hi)⟩

theorem modeColumn_of {nm n : Nat} (o : MultiScan.Ops ℝ) (cfg : MultiScan.Cfg ℝ)
    (res : Nat → MultiScan.Final ℝ) (time : Nat → ℝ)
    (hres : ∀ i, i < n → Spec.MultiScan.Sized nm (res i)) (idx : List Nat) (hidx : ∀ i ∈ idx, i < n)
    (name src : String) (hx : (name, src) ∈ Spec.MultiScan.modeMeaning) (k : Nat) (hk : k < nm)
    (Q : Nat → ℝ → Prop) (hQ : ∀ i, i < n → Q i (((res i).vec src).getD k 0)) :
    ModeColumn nm (idx.map (MultiScan.column o cfg 0 nm res time)) name k idx Q :=
  ⟨fun i => ((res i).vec src).getD k 0,
    MultiScan.saved_mode o cfg 0 nm res time (name, src) hx idx (fun i hi => hres i (hidx i hi)) k hk,
    fun i hi => hQ i (hidx i hi)⟩

theorem started {lit : String → ℝ} {single : Bool} {f : File ℝ} (hf : WellFormed f)
    {r : MultiScanObj ℝ} {c : MultiScan.Cfg ℝ} {p : Plan}
    (hstart : start lit single f = .ok (r, c, p)) : Accepted lit single f r ∧ init r = .ok p := by
  unfold start at hstart
  cases hr' : multiScanInput (fun z => (z : ℝ)) 0 f (optNew lit single) (multiScanNew lit) with
  | error e => rw [hr'] at hstart; simp [lift, Except.bind] at hstart
  | ok r' =>
    rw [hr'] at hstart
    simp only [lift, Except.bind] at hstart
    cases hi : init r' with
    | error e => rw [hi] at hstart; simp at hstart
    | ok p' =>
      rw [hi] at hstart
      simp only at hstart
      cases hc : cfgOf r'.mem with
      | error e => rw [hc] at hstart; simp at hstart
      | ok c' =>
        rw [hc] at hstart
        simp only [Except.ok.injEq, Prod.mk.injEq] at hstart
        obtain ⟨rfl, rfl, rfl⟩ := hstart
        exact ⟨⟨hf, hr'⟩, hi⟩

/-- If all grid points can be evaluated then the parameters are scannable and there is room for an
iteration. -/
theorem scannable_of_ok (w : Nat → Nat → World ℝ P) (look : Look P) (lit : String → ℝ)
    (single : Bool) (f : File ℝ) (r : MultiScanObj ℝ) (ha : Accepted lit single f r)
    (hs : NaturalSizes r.ref.opts) (ds : List Scanned) (hd : IsScanned r.mem ds) (hp : Positive ds)
    (p : Plan) (hi : init r = .ok p) (o0 : OptObj ℝ) (h0 : r.ref.opts[0]? = some o0)
    (s : Raw) (hr : IsRaw o0.mem s) (res : Nat → MultiScan.Final ℝ)
    (hev : ∀ i, i < p.total → evalIndex (w i) look r p i = .ok (res i)) (hpos : 0 < p.total) :
    (∀ d ∈ ds, Scannable o0.q.R0c.length r.ref.opts.length d) ∧ 1 ≤ s.maxIter := by
  have he := hev 0 hpos
  have hsc : ∀ d ∈ ds, Scannable o0.q.R0c.length r.ref.opts.length d := by
    refine (stages_of_point lit single f r ha hs ds hd hp p hi o0 h0 0).1.1 ?_
    unfold evalIndex at he
    cases hos : stagesAt r p 0 with
    | error e => rw [hos] at he; simp [Except.bind] at he
    | ok os => exact ⟨os, rfl⟩
  refine ⟨hsc, ?_⟩
  have h1 := ((hs o0 (List.mem_of_getElem? h0)).2 s hr).1.maxIter
  by_contra hlt
  rcases no_iterations (w 0) look lit single f r ha hs ds hd hp p hi o0 h0 hsc s hr (by omega) 0
    with h | ⟨m, h⟩ <;> rw [h] at he <;> simp at he

open Classical in
theorem sofar_sublist (n : Nat) (sofar : List Nat) (K : Nat → Prop) :
    ((List.range n).filter fun i => decide (i ∈ sofar ∧ K i)).Sublist
      ((List.range n).filter fun i => decide (K i)) := by
  have : ((List.range n).filter fun i => decide (i ∈ sofar ∧ K i)) =
      ((List.range n).filter fun i => decide (K i)).filter fun i => decide (i ∈ sofar) := by
    rw [List.filter_filter]
    congr 1
    funext i
    simp [Bool.decide_and]
  rw [this]
  exact List.filter_sublist

open Classical in
/-- **C79.** A scan from a file, on any number of workers, with any schedule and any checkpoints:
if the optimizations of all grid points end normally then the output, and each checkpoint, has one
column per kept grid point, in the order of the grid, and the columns contain the settings and the
initial conditions of these grid points. -/
theorem scan_output (w : Nat → Nat → World ℝ P) (look : Look P) (lit : String → ℝ) (single : Bool)
    (f : File ℝ) (hf : WellFormed f) (r : MultiScanObj ℝ) (c : MultiScan.Cfg ℝ) (p : Plan)
    (hstart : start lit single f = .ok (r, c, p)) (hs : NaturalSizes r.ref.opts)
    (ds : List Scanned) (hd : IsScanned r.mem ds) (hp : Positive ds)
    (o0 o1 : OptObj ℝ) (h0 : r.ref.opts[0]? = some o0) (h1 : r.ref.opts.getLast? = some o1)
    (s : Raw) (hr : IsRaw o0.mem s)
    (res : Nat → MultiScan.Final ℝ)
    (hev : ∀ i, i < p.total → evalIndex (w i) look r p i = .ok (res i))
    (o : MultiScan.Ops ℝ) {W bound : Nat} (hW : 0 < W) (hWn : W ≤ p.total) (hN : p.total < bound)
    (save : Nat → Bool) (time : Nat → ℝ)
    {cb : Fin (W + 1) → Fin (W + 1) → MultiScan.Msg ℝ → Prop} {k : Nat}
    {t : Mpi.St (Fin (W + 1)) (MultiScan.Msg ℝ) (MultiScan.Res ℝ)}
    (hst : Mpi.Steps cb k
      (Mpi.St.start (MultiScan.scan (W := W) o c 0 p.nm p.total bound save res time)) t)
    (hfin : t.Finished) :
    ∃ (m : MultiScan.Master ℝ) (sv : List (MultiScan.Master ℝ × MultiScan.Saved ℝ)) (out : MultiScan.Saved ℝ),
      t.procs 0 = .done (.master m sv out) ∧ p.total = points ds ∧
      Output p.nm r.ref.opts.length ds o0 o1 s
        ((List.range p.total).filter fun i => decide (Spec.MultiScan.Keep o c (res i))) out ∧
      ∀ x ∈ sv, ∃ idx, idx.Sublist
          ((List.range p.total).filter fun i => decide (Spec.MultiScan.Keep o c (res i))) ∧
        Output p.nm r.ref.opts.length ds o0 o1 s idx x.2 := by
  obtain ⟨ha, hi⟩ := started hf hstart
  have htot := ((init_iff lit single f r ha hs ds hd).2.2 p hi)
  obtain ⟨hsc, hm⟩ := scannable_of_ok w look lit single f r ha hs ds hd hp p hi o0 h0 s hr res hev
    (by omega)
  have hall := fun i (hi' : i < p.total) =>
    evaluation (w i) look lit single f r ha hs ds hd hp p hi o0 o1 h0 h1 hsc s hr hm i
  have hall' : ∀ i, i < p.total → Spec.MultiScan.Sized p.nm (res i) ∧
      Result p.nm r.ref.opts.length ds i o0 o1 (res i) ∧
      (o0.q.order_r_option = "r2.1" ∧ 2 ≤ s.maxIter → Initial p.nm ds i o0 (res i)) ∧
      (¬ (o0.q.order_r_option = "r2.1" ∧ 2 ≤ s.maxIter) → NoInitial (res i)) := by
    intro i hi'
    have := hall i hi'
    rw [hev i hi'] at this
    exact this
  have hsz := fun i hi' => (hall' i hi').1
  have hN0 : o0.q.R0c.length ≤ p.nm := by have := htot.2 o0 h0; omega
  have hs0 := ha.sizes (List.mem_of_getElem? h0) (List.mem_of_getElem? h0)
  have key : ∀ idx : List Nat, (∀ i ∈ idx, i < p.total) →
      Output p.nm r.ref.opts.length ds o0 o1 s idx
        (idx.map (MultiScan.column o c 0 p.nm res time)) := by
    intro idx hidx
    refine ⟨?_, ?_, ?_, ?_, ?_⟩
    · exact column_of o c res time hsz idx hidx _ "q.p2" (by decide +kernel) _
        fun i hi' => (hall' i hi').2.1.p2
    · intro m hm'
      obtain ⟨a, ha', -⟩ := (hall' 0 (by omega)).2.1.settings m hm'
      refine ⟨a, ha', column_of o c res time hsz idx hidx _ m (scan_rows m hm') _ fun i hi' => ?_⟩
      obtain ⟨a', ha'', hv⟩ := (hall' i hi').2.1.settings m hm'
      rw [ha'] at ha''
      simp only [Option.some.injEq, Val.flt.injEq] at ha''
      rw [ha'']; exact hv
    · intro x hx
      have hfix := fun i hi' => (hall' i hi').2.1.fixed x.2
      simp only [fixedRows, List.mem_cons, List.not_mem_nil, or_false] at hx
      rcases hx with rfl | rfl | rfl
      all_goals
        exact column_of o c res time hsz idx hidx _ _ (by decide +kernel) _
          fun i hi' => hfix i hi' (by simp)
    · intro hc
      have hI := fun i hi' => (hall' i hi').2.2.1 hc
      refine ⟨?_, ?_, ?_, ?_, ?_, ?_, ?_, ?_⟩
      · exact column_of o c res time hsz idx hidx _ "iter_eta_bar" (by decide +kernel) _
          fun i hi' => (hI i hi').eta_bar
      · exact column_of o c res time hsz idx hidx _ "iter_B2c" (by decide +kernel) _
          fun i hi' => (hI i hi').B2c
      · exact column_of o c res time hsz idx hidx _ "iter_B2s" (by decide +kernel) _
          fun i hi' => (hI i hi').B2s
      · intro k a hk
        exact modeColumn_of o c res time hsz idx hidx _ "iter_R0c" (by decide +kernel) k
          (by have := (List.getElem?_eq_some_iff.1 hk).1; omega) _ fun i hi' => (hI i hi').R0c k a hk
      · intro k a hk
        exact modeColumn_of o c res time hsz idx hidx _ "iter_Z0s" (by decide +kernel) k
          (by have := (List.getElem?_eq_some_iff.1 hk).1; have := hs0.Z0s; simp only [configOf] at this; omega)
          _ fun i hi' => (hI i hi').Z0s k a hk
      · intro k a hk
        exact modeColumn_of o c res time hsz idx hidx _ "iter_R0s" (by decide +kernel) k
          (by have := (List.getElem?_eq_some_iff.1 hk).1; have := hs0.R0s; simp only [configOf] at this; omega)
          _ fun i hi' => (hI i hi').R0s k a hk
      · intro k a hk
        exact modeColumn_of o c res time hsz idx hidx _ "iter_Z0c" (by decide +kernel) k
          (by have := (List.getElem?_eq_some_iff.1 hk).1; have := hs0.Z0c; simp only [configOf] at this; omega)
          _ fun i hi' => (hI i hi').Z0c k a hk
      · intro x hx k hk1 hk2
        have hb := fun i hi' => (hI i hi').beyond
        simp only [List.mem_cons, List.not_mem_nil, or_false] at hx
        rcases hx with rfl | rfl | rfl | rfl
        · exact modeColumn_of o c res time hsz idx hidx _ "iter_R0c" (by decide +kernel) k hk2 _
            fun i hi' => hb i hi' _ (by simp) k hk1
        · exact modeColumn_of o c res time hsz idx hidx _ "iter_R0s" (by decide +kernel) k hk2 _
            fun i hi' => hb i hi' _ (by simp) k hk1
        · exact modeColumn_of o c res time hsz idx hidx _ "iter_Z0c" (by decide +kernel) k hk2 _
            fun i hi' => hb i hi' _ (by simp) k hk1
        · exact modeColumn_of o c res time hsz idx hidx _ "iter_Z0s" (by decide +kernel) k hk2 _
            fun i hi' => hb i hi' _ (by simp) k hk1
    · intro hc
      have hI := fun i hi' => (hall' i hi').2.2.2 hc
      refine ⟨?_, ?_⟩
      · intro x hx
        simp only [List.mem_cons, List.not_mem_nil, or_false] at hx
        rcases hx with rfl | rfl | rfl
        · exact column_of o c res time hsz idx hidx _ "iter_eta_bar" (by decide +kernel) _
            fun i hi' => (hI i hi').scalars _ (by simp)
        · exact column_of o c res time hsz idx hidx _ "iter_B2c" (by decide +kernel) _
            fun i hi' => (hI i hi').scalars _ (by simp)
        · exact column_of o c res time hsz idx hidx _ "iter_B2s" (by decide +kernel) _
            fun i hi' => (hI i hi').scalars _ (by simp)
      · intro x hx k hk
        simp only [List.mem_cons, List.not_mem_nil, or_false] at hx
        rcases hx with rfl | rfl | rfl | rfl
        · exact modeColumn_of o c res time hsz idx hidx _ "iter_R0c" (by decide +kernel) k hk _
            fun i hi' => (hI i hi').arrays _ (by simp) k
        · exact modeColumn_of o c res time hsz idx hidx _ "iter_R0s" (by decide +kernel) k hk _
            fun i hi' => (hI i hi').arrays _ (by simp) k
        · exact modeColumn_of o c res time hsz idx hidx _ "iter_Z0c" (by decide +kernel) k hk _
            fun i hi' => (hI i hi').arrays _ (by simp) k
        · exact modeColumn_of o c res time hsz idx hidx _ "iter_Z0s" (by decide +kernel) k hk _
            fun i hi' => (hI i hi').arrays _ (by simp) k
  obtain ⟨arr, m, sv, hperm, -, hproc, hsv⟩ := MultiScan.saved_in_order o c 0 p.nm p.total bound save
    res time hW hWn hN hsz hst hfin
  refine ⟨m, sv, _, hproc, htot.1, key _ ?_, ?_⟩
  · intro i hi'
    exact List.mem_range.1 (List.mem_filter.1 hi').1
  · intro x hx
    obtain ⟨sofar, -, -, hx2⟩ := hsv x hx
    rw [hx2]
    exact ⟨_, sofar_sublist _ _ _, key _ fun i hi' => List.mem_range.1 (List.mem_filter.1 hi').1⟩

/-- What is read after the last stage. -/
theorem evalIndex_run (w : Nat → World ℝ P) (look : Look P) (r : MultiScanObj ℝ) (p : Plan) (i : Nat)
    (res : MultiScan.Final ℝ) (h : evalIndex w look r p i = .ok res) :
    ∃ os sts total st0 st1 o0 o1 x, stagesAt r p i = .ok os ∧
      runStages w 0 os none 0 = .ok (sts, total) ∧ sts.getLast? = some st1 ∧
      (p.nm ≤ st1.q.R0c.length ∧ p.nm ≤ st1.q.R0s.length ∧ p.nm ≤ st1.q.Z0c.length ∧
        p.nm ≤ st1.q.Z0s.length) ∧
      res = ⟨total, look.helicity st1, scalar look o0 o1 st1 x, array p.nm st0 st1 x⟩ := by
  unfold evalIndex at h
  cases hos : stagesAt r p i with
  | error e => rw [hos] at h; simp [Except.bind] at h
  | ok os =>
    rw [hos] at h
    simp only [Except.bind] at h
    cases hrun : runStages w 0 os none 0 with
    | error e => rw [hrun] at h; simp [lift] at h
    | ok y =>
      rw [hrun] at h
      obtain ⟨sts, total⟩ := y
      simp only [lift, finalOf] at h
      cases h0 : os[0]? with
      | none => rw [h0] at h; simp [need, Except.bind] at h
      | some o0 =>
      rw [h0] at h
      simp only [need, Except.bind] at h
      cases h1 : os.getLast? with
      | none => rw [h1] at h; simp at h
      | some o1 =>
      rw [h1] at h
      simp only at h
      cases h2 : sts[0]? with
      | none => rw [h2] at h; simp at h
      | some st0 =>
      rw [h2] at h
      simp only at h
      cases h3 : sts.getLast? with
      | none => rw [h3] at h; simp at h
      | some st1 =>
      rw [h3] at h
      simp only at h
      cases h4 : st0.hist[0]? with
      | none => rw [h4] at h; simp at h
      | some x =>
      rw [h4] at h
      simp only at h
      split at h
      · cases h
      · rename_i hn
        simp only [not_or, Nat.not_lt] at hn
        exact ⟨os, sts, total, st0, st1, o0, o1, x, rfl, hrun, h3, ⟨hn.1, hn.2.1, hn.2.2.1, hn.2.2.2⟩,
          (Except.ok.inj h).symm⟩

open Classical in
/-- **C79 (final values).** The other columns: what the last stage of the optimization of each kept
grid point ended with, its number of modes being that of the output, and the number of evaluations
in all stages. -/
theorem scan_final (w : Nat → Nat → World ℝ P) (look : Look P) (lit : String → ℝ) (single : Bool)
    (f : File ℝ) (hf : WellFormed f) (r : MultiScanObj ℝ) (c : MultiScan.Cfg ℝ) (p : Plan)
    (hstart : start lit single f = .ok (r, c, p)) (hs : NaturalSizes r.ref.opts)
    (ds : List Scanned) (hd : IsScanned r.mem ds) (hp : Positive ds)
    (res : Nat → MultiScan.Final ℝ)
    (hev : ∀ i, i < p.total → evalIndex (w i) look r p i = .ok (res i))
    (o : MultiScan.Ops ℝ) {W bound : Nat} (hW : 0 < W) (hWn : W ≤ p.total) (hN : p.total < bound)
    (save : Nat → Bool) (time : Nat → ℝ)
    {cb : Fin (W + 1) → Fin (W + 1) → MultiScan.Msg ℝ → Prop} {k : Nat}
    {t : Mpi.St (Fin (W + 1)) (MultiScan.Msg ℝ) (MultiScan.Res ℝ)}
    (hst : Mpi.Steps cb k
      (Mpi.St.start (MultiScan.scan (W := W) o c 0 p.nm p.total bound save res time)) t)
    (hfin : t.Finished) :
    ∃ (last : Nat → OptLoop.St ℝ P) (evals : Nat → Nat),
      (∀ i, i < p.total → ∃ os sts, stagesAt r p i = .ok os ∧
        runStages (w i) 0 os none 0 = .ok (sts, evals i) ∧ sts.getLast? = some (last i) ∧
        evals i = (sts.map (·.nEvals)).sum ∧ Spec.OptLoop.AllSize p.nm (last i).q) ∧
      ∃ (m : MultiScan.Master ℝ) (sv : List (MultiScan.Master ℝ × MultiScan.Saved ℝ)) (out : MultiScan.Saved ℝ),
        t.procs 0 = .done (.master m sv out) ∧
        FinalOut look p.nm last evals
          ((List.range p.total).filter fun i => decide (Spec.MultiScan.Keep o c (res i))) out ∧
        ∀ x ∈ sv, ∃ idx, idx.Sublist
            ((List.range p.total).filter fun i => decide (Spec.MultiScan.Keep o c (res i))) ∧
          FinalOut look p.nm last evals idx x.2 := by
  obtain ⟨ha, hi⟩ := started hf hstart
  have hpos : 0 < r.ref.opts.length := List.length_pos_iff.2 ha.nonempty
  have h0 := List.getElem?_eq_getElem hpos
  obtain ⟨o1, h1⟩ : ∃ o1, r.ref.opts.getLast? = some o1 :=
    ⟨_, (List.getLast?_eq_getElem?).trans (List.getElem?_eq_getElem (by omega))⟩
  obtain ⟨s, -, hr⟩ := rawOf_typed (ha.typed.2 _ (List.mem_of_getElem? h0))
  obtain ⟨hsc, hm⟩ := scannable_of_ok w look lit single f r ha hs ds hd hp p hi _ h0 s hr res hev
    (by omega)
  have hsz : ∀ i, i < p.total → Spec.MultiScan.Sized p.nm (res i) := by
    intro i hi'
    have := evaluation (w i) look lit single f r ha hs ds hd hp p hi _ o1 h0 h1 hsc s hr hm i
    rw [hev i hi'] at this
    exact this.1
  have hrun : ∀ i, ∃ (l : OptLoop.St ℝ P) (e : Nat), i < p.total → (∃ os sts, stagesAt r p i = .ok os ∧
        runStages (w i) 0 os none 0 = .ok (sts, e) ∧ sts.getLast? = some l ∧
        e = (sts.map (·.nEvals)).sum ∧ Spec.OptLoop.AllSize p.nm l.q) ∧
      ∃ st0 a b x, res i = ⟨e, look.helicity l, scalar look a b l x, array p.nm st0 l x⟩ := by
    intro i
    by_cases hi' : i < p.total
    · obtain ⟨os, sts, total, st0, st1, a, b, x, e1, e2, e3, -, e5⟩ := evalIndex_run _ _ _ _ _ _ (hev i hi')
      refine ⟨st1, total, fun _ => ⟨⟨os, sts, e1, e2, e3, ?_⟩, st0, a, b, x, e5⟩⟩
      obtain ⟨os', p0, p1, hos, hlen, -, hp0, hp1, -, -, hnm, hrefine, hfine⟩ :=
        prepared (w i) lit single f r ha hs ds hd hp p hi _ o1 h0 h1 hsc i
      obtain rfl := Except.ok.inj (e1.symm.trans hos)
      rw [e2] at hfine
      obtain ⟨-, l2, -, l4⟩ := hfine
      have := l4 st1 e3
      rw [hrefine, ← hnm] at this
      exact ⟨l2, this⟩
    · obtain ⟨os, sts, total, st0, st1, -⟩ := evalIndex_run _ _ _ _ _ _ (hev 0 (by omega))
      exact ⟨st1, 0, fun h => absurd h hi'⟩
  choose last evals hle using hrun
  refine ⟨last, evals, fun i hi' => (hle i hi').1, ?_⟩
  have hsc' : ∀ i, i < p.total → ∀ src, src ∉ given → (res i).get src = look.num (last i) src := by
    intro i hi' src hg
    obtain ⟨-, st0, a, b, x, e⟩ := hle i hi'
    rw [e]
    have hsub : ∀ y ∈ settingRows, y ∈ given := by decide
    have hn : src ∉ settingRows := fun hc => hg (hsub src hc)
    simp only [given, List.cons_append, List.nil_append, List.mem_cons, not_or] at hg
    simp [scalar, hn, hg]
  have hnum : ∀ i, i < p.total → (res i).get "q.eta_bar" = (last i).q.etaBar ∧
      (res i).get "q.sigma0" = (last i).q.sigma0 ∧ (res i).get "q.B2c" = (last i).q.B2c ∧
      (res i).get "q.B2s" = (last i).q.B2s := by
    intro i hi'
    obtain ⟨-, st0, a, b, x, e⟩ := hle i hi'
    rw [e]
    simp [scalar, settingRows]
  have harr : ∀ i, i < p.total → ∀ k, k < p.nm →
      (last i).q.R0c[k]? = some (((res i).vec "q.R0c").getD k 0) ∧
      (last i).q.R0s[k]? = some (((res i).vec "q.R0s").getD k 0) ∧
      (last i).q.Z0c[k]? = some (((res i).vec "q.Z0c").getD k 0) ∧
      (last i).q.Z0s[k]? = some (((res i).vec "q.Z0s").getD k 0) := by
    intro i hi' k hk
    obtain ⟨⟨-, -, -, -, -, -, hz⟩, st0, a, b, x, e⟩ := hle i hi'
    rw [e]
    obtain ⟨z1, z2, z3, z4⟩ := hz
    simp [array, z1, z2, z3, z4, hk]
  have key : ∀ idx : List Nat, (∀ i ∈ idx, i < p.total) →
      FinalOut look p.nm last evals idx (idx.map (MultiScan.column o c 0 p.nm res time)) := by
    intro idx hidx
    have hint := MultiScan.saved_ints o c 0 p.nm res time idx
    refine ⟨?_, ?_, ?_, ?_, ?_, ?_, ?_, ?_, ?_, ?_, ?_⟩
    · exact column_of o c res time hsz idx hidx _ "q.eta_bar" (by decide +kernel) _
        fun i hi' => (hnum i hi').1
    · exact column_of o c res time hsz idx hidx _ "q.sigma0" (by decide +kernel) _
        fun i hi' => (hnum i hi').2.1
    · exact column_of o c res time hsz idx hidx _ "q.B2c" (by decide +kernel) _
        fun i hi' => (hnum i hi').2.2.1
    · exact column_of o c res time hsz idx hidx _ "q.B2s" (by decide +kernel) _
        fun i hi' => (hnum i hi').2.2.2
    · intro k hk
      exact modeColumn_of o c res time hsz idx hidx _ "q.R0c" (by decide +kernel) k hk _
        fun i hi' => (harr i hi' k hk).1
    · intro k hk
      exact modeColumn_of o c res time hsz idx hidx _ "q.R0s" (by decide +kernel) k hk _
        fun i hi' => (harr i hi' k hk).2.1
    · intro k hk
      exact modeColumn_of o c res time hsz idx hidx _ "q.Z0c" (by decide +kernel) k hk _
        fun i hi' => (harr i hi' k hk).2.2.1
    · intro k hk
      exact modeColumn_of o c res time hsz idx hidx _ "q.Z0s" (by decide +kernel) k hk _
        fun i hi' => (harr i hi' k hk).2.2.2
    · intro x hx hg
      exact column_of o c res time hsz idx hidx x.1 x.2 hx _ fun i hi' => hsc' i hi' x.2 hg
    · refine hint.2.trans (List.map_congr_left fun i hi' => ?_)
      obtain ⟨-, st0, a, b, x, e⟩ := hle i (hidx i hi')
      rw [e]
    · refine hint.1.trans (List.map_congr_left fun i hi' => ?_)
      obtain ⟨-, st0, a, b, x, e⟩ := hle i (hidx i hi')
      rw [e]
  obtain ⟨arr, m, sv, hperm, -, hproc, hsv⟩ := MultiScan.saved_in_order o c 0 p.nm p.total bound save
    res time hW hWn hN hsz hst hfin
  refine ⟨m, sv, _, hproc, key _ fun i hi' => List.mem_range.1 (List.mem_filter.1 hi').1, ?_⟩
  intro x hx
  obtain ⟨sofar, -, -, hx2⟩ := hsv x hx
  rw [hx2]
  exact ⟨_, sofar_sublist _ _ _, key _ fun i hi' => List.mem_range.1 (List.mem_filter.1 hi').1⟩

/-! ## Examples -/

noncomputable def exLitM (s : String) : ℝ :=
  if s = "-1.0" then -1 else if s = "1.0" then 1 else 0

/-- Two stages; a weight is scanned in both of them and a mode of the initial axis in the first. -/
noncomputable def exM (name : String) (n iter : Int) : File ℝ :=
  [("qsc", [("nfp", .int 4), ("order_r_option", .str "r2.1"), ("R0c", .arr [.flt 1, .flt 17]),
     ("Z0s", .arr [.flt 0, .flt 15]), ("nphi", .int 31)]),
   ("multiopt", [("nopts", .int 2)]),
   ("opt0", [("weight_B20", .flt 2), ("fourier_refine", .int 1), ("max_iter", .int iter)]),
   ("opt1", [("weight_B20", .flt 3), ("max_iter", .int 5), ("nphi", .arr [.int 50]),
     ("vary_R0c", .arr [.bool false, .bool false, .bool true]),
     ("vary_R0s", .arr [.bool false, .bool false, .bool false]),
     ("vary_Z0c", .arr [.bool false, .bool false, .bool false]),
     ("vary_Z0s", .arr [.bool false, .bool true, .bool true])]),
   ("multiopt_scan", [("params", .arr [.str "weight_B20", .str name]),
     ("params_min", .arr [.flt 1, .flt 2]), ("params_max", .arr [.flt 4, .flt 8]),
     ("params_n", .arr [.int 3, .int n]), ("params_stage", .arr [.int (-1), .int 0]),
     ("params_log", .arr [.bool true, .bool false])])]

theorem exM_wellFormed (name : String) (n iter : Int) : WellFormed (exM name n iter) := by
  refine ⟨by simp [exM], ?_⟩
  simp [exM]

/-- The integers, names and flags of what was read. -/
def exCheck (name : String) (n iter : Int) (r : MultiScanObj ℝ) : Bool :=
  (match r.mem "params" with | some (.strs l) => l == ["weight_B20", name] | _ => false) &&
  (match r.mem "params_stage" with | some (.ints l) => l == [-1, 0] | _ => false) &&
  (match r.mem "params_log" with | some (.bools l) => l == [true, false] | _ => false) &&
  (match r.mem "params_n" with | some (.ints l) => l == [3, n] | _ => false) &&
  r.ref.opts.length == 2 &&
  (r.ref.opts.all fun o => o.q.nphi == 31 && o.q.order_r_option == "r2.1" && o.q.R0c.length == 2 &&
    match rawOf o.mem with
    | some s => (s.refine == 1 && s.maxIter == iter && s.nphis == [] ||
        s.refine == 0 && s.maxIter == 5 && s.nphis == [50])
    | none => false) &&
  match r.ref.opts[0]? with
  | some o => (match rawOf o.mem with | some s => s.maxIter == iter | none => false)
  | none => false

theorem exM_ok (name : String) (n iter : Int)
    (h : (name, n, iter) ∈ [("R0c1", 4, 10), ("R0c2", 4, 10), ("R0c1", 1, 10), ("R0c1", 4, 0)]) :
    ∃ r, Accepted exLitM false (exM name n iter) r ∧ exCheck name n iter r = true := by
  have key : ∀ e : Except Sections.Err (MultiScanObj ℝ),
      (match e with | .ok r => exCheck name n iter r | .error _ => false) = true →
      ∃ r, e = .ok r ∧ exCheck name n iter r = true := by
    rintro (e | r) h
    · cases h
    · exact ⟨r, rfl, h⟩
  suffices h : ∃ r, multiScanInput (fun z => (z : ℝ)) 0 (exM name n iter) (optNew exLitM false)
      (multiScanNew exLitM) = .ok r ∧ exCheck name n iter r = true from
    h.imp fun r h => ⟨⟨exM_wellFormed _ _ _, h.1⟩, h.2⟩
  simp only [List.mem_cons, Prod.mk.injEq, List.not_mem_nil, or_false] at h
  rcases h with ⟨rfl, rfl, rfl⟩ | ⟨rfl, rfl, rfl⟩ | ⟨rfl, rfl, rfl⟩ | ⟨rfl, rfl, rfl⟩ <;>
    exact key _ (by decide +kernel)

/-- The scanned parameters of the example. -/
noncomputable def exDims (name : String) (n : Int) : List Scanned :=
  [⟨"weight_B20", -1, true, 1, 4, 3⟩, ⟨name, 0, false, 2, 8, n⟩]

theorem exM_read {name : String} {n iter : Int} {r : MultiScanObj ℝ} (hit : 0 ≤ iter)
    (h : Accepted exLitM false (exM name n iter) r) (hc : exCheck name n iter r = true) :
    IsScanned r.mem (exDims name n) ∧ NaturalSizes r.ref.opts ∧ r.ref.opts.length = 2 ∧
    ∃ o, r.ref.opts[0]? = some o ∧ o.q.R0c.length = 2 ∧ o.q.order_r_option = "r2.1" ∧
      ∃ s, IsRaw o.mem s ∧ s.maxIter = iter := by
  obtain ⟨-, t, ht, ⟨-, hr, -⟩, -⟩ := (multiScanInput_iff _ 0 _ h.wellFormed _ _ r).1 h.read
  have ht' : t = [("params", .arr [.str "weight_B20", .str name]),
     ("params_min", .arr [.flt 1, .flt 2]), ("params_max", .arr [.flt 4, .flt 8]),
     ("params_n", .arr [.int 3, .int n]), ("params_stage", .arr [.int (-1), .int 0]),
     ("params_log", .arr [.bool true, .bool false])] := by
    simp only [exM, List.mem_cons, Prod.mk.injEq, List.not_mem_nil, or_false, String.reduceEq,
      false_and, false_or, true_and] at ht
    exact ht
  have ar (k : String) (hk : multiScanDoc.Has .flts k) (x y : ℝ)
      (hy : (k, Toml.Value.arr [.flt x, .flt y]) ∈ t) : r.mem k = some (.flts [x, y]) := by
    obtain ⟨v, ⟨w, hw, rfl⟩, e⟩ := (hr .flts k hk).2 _ hy
    match w, hw with
    | [a, b], hw => simp at hw; rw [e, hw.1, hw.2]
  have hlo := ar "params_min" (by simp [Doc.Has, multiScanDoc]) 1 2 (by rw [ht']; simp)
  have hhi := ar "params_max" (by simp [Doc.Has, multiScanDoc]) 4 8 (by rw [ht']; simp)
  unfold exCheck at hc
  simp only [Bool.and_eq_true] at hc
  obtain ⟨⟨⟨⟨⟨⟨c1, c2⟩, c3⟩, c4⟩, c5⟩, c6⟩, c7⟩ := hc
  refine ⟨⟨?_, ?_, ?_, hlo, hhi, ?_⟩, ?_, by simpa using c5, ?_⟩
  · split at c1
    · rename_i l e; rw [e]; simpa [exDims] using c1
    · cases c1
  · split at c2
    · rename_i l e; rw [e]; simpa [exDims] using c2
    · cases c2
  · split at c3
    · rename_i l e; rw [e]; simpa [exDims] using c3
    · cases c3
  · split at c4
    · rename_i l e; rw [e]; simpa [exDims] using c4
    · cases c4
  · intro o ho
    have c := List.all_eq_true.1 c6 o ho
    simp only [Bool.and_eq_true, beq_iff_eq] at c
    obtain ⟨⟨⟨d1, d2⟩, d3⟩, d4⟩ := c
    refine ⟨by omega, fun s hs => ?_⟩
    obtain ⟨s', e, hs'⟩ := rawOf_typed (h.typed.2 o ho)
    obtain rfl := isRaw_unique hs hs'
    rw [e] at d4
    simp only [Bool.or_eq_true, Bool.and_eq_true, beq_iff_eq] at d4
    rcases d4 with ⟨⟨e1, e2⟩, e3⟩ | ⟨⟨e1, e2⟩, e3⟩
    · exact ⟨⟨by omega, by omega, by simp [e3]⟩, by simp [e3]⟩
    · exact ⟨⟨by omega, by omega, by simp [e3]⟩, by simp [e3]⟩
  · cases ho : r.ref.opts[0]? with
    | none => rw [ho] at c7; cases c7
    | some o =>
      rw [ho] at c7
      simp only at c7
      have c := List.all_eq_true.1 c6 o (List.mem_of_getElem? ho)
      simp only [Bool.and_eq_true, beq_iff_eq] at c
      obtain ⟨⟨⟨d1, d2⟩, d3⟩, d4⟩ := c
      obtain ⟨s', e, hs'⟩ := rawOf_typed (h.typed.2 o (List.mem_of_getElem? ho))
      rw [e] at c7
      exact ⟨o, rfl, d3, d2, s', hs', by simpa using c7⟩

theorem exDims_positive (name : String) (n : Int) : Positive (exDims name n) := by
  intro d hd
  simp only [exDims, List.mem_cons, List.not_mem_nil, or_false] at hd
  rcases hd with rfl | rfl <;> simp

theorem exDims_scannable : ∀ d ∈ exDims "R0c1" 4, Scannable 2 2 d := by
  intro d hd
  simp only [exDims, List.mem_cons, List.not_mem_nil, or_false] at hd
  rcases hd with rfl | rfl
  · exact ⟨by norm_num, Or.inl (by simp [settings])⟩
  · exact ⟨by norm_num, Or.inr ⟨by
      right; right; right; right; exact ⟨1, by norm_num, by norm_num, Or.inl (by decide)⟩, Or.inl rfl⟩⟩

/-- Twelve grid points, three modes in the output, and every grid point has its stages. -/
example : ∃ r p, Accepted exLitM false (exM "R0c1" 4 10) r ∧ init r = .ok p ∧ p.total = 12 ∧
    (∀ i, ∃ os, stagesAt r p i = .ok os) ∧
    ∀ (w : Nat → World ℝ P) look i, FineAt (fun res => (res.vec "q.R0c").length = p.nm)
      (evalIndex w look r p i) := by
  obtain ⟨r, h, hc⟩ := exM_ok "R0c1" 4 10 (by simp)
  obtain ⟨hd, hs, hl, o, ho, hn, hor, s, hr, hm⟩ := exM_read (by norm_num) h hc
  obtain ⟨a1, a2, a3⟩ := init_iff _ _ _ r h hs _ hd
  obtain ⟨p, hp⟩ := a1.2 (by simp [exDims])
  obtain ⟨o1, ho1⟩ : ∃ o1, r.ref.opts.getLast? = some o1 :=
    ⟨_, (List.getLast?_eq_getElem?).trans (List.getElem?_eq_getElem (by omega))⟩
  refine ⟨r, p, h, hp, ?_, fun i => ?_, fun w look i => ?_⟩
  · rw [(a3 p hp).1]; rfl
  · refine (stages_of_point _ _ _ r h hs _ hd (exDims_positive _ _) p hp o ho i).1.2 ?_
    rw [hn, hl]; exact exDims_scannable
  · have := evaluation w look _ _ _ r h hs _ hd (exDims_positive _ _) p hp o o1 ho ho1
      (by rw [hn, hl]; exact exDims_scannable) s hr (by omega) i
    revert this
    cases evalIndex w look r p i with
    | error e => exact id
    | ok res => exact fun h => h.1.last "q.R0c" (by simp)

/-- Mode 2 exists in the output but not in the first stage: no grid point can be evaluated. -/
example : ∃ r p, Accepted exLitM false (exM "R0c2" 4 10) r ∧ init r = .ok p ∧
    ∀ i os, stagesAt r p i ≠ .ok os := by
  obtain ⟨r, h, hc⟩ := exM_ok "R0c2" 4 10 (by simp)
  obtain ⟨hd, hs, hl, o, ho, hn, hor, s, hr, hm⟩ := exM_read (by norm_num) h hc
  obtain ⟨p, hp⟩ := (init_iff _ _ _ r h hs _ hd).1.2 (by simp [exDims])
  refine ⟨r, p, h, hp, fun i os hos => ?_⟩
  have := (stages_of_point _ _ _ r h hs _ hd (exDims_positive _ _) p hp o ho i).1.1 ⟨os, hos⟩
  rw [hn, hl] at this
  obtain ⟨-, h1⟩ := this ⟨"R0c2", 0, false, 2, 8, 4⟩ (by simp [exDims])
  rcases h1 with h1 | ⟨h1, -⟩
  · simp [settings] at h1
  · rcases h1 with h1 | h1 | h1 | h1 | ⟨k, k1, k2, h1⟩
    · simp at h1
    · simp at h1
    · simp at h1
    · simp at h1
    · obtain rfl : k = 1 := by omega
      revert h1
      decide

/-- One value is not enough. -/
example : ∃ r, Accepted exLitM false (exM "R0c1" 1 10) r ∧ ∃ m, init r = .error (.throw m) := by
  obtain ⟨r, h, hc⟩ := exM_ok "R0c1" 1 10 (by simp)
  obtain ⟨hd, hs, -⟩ := exM_read (by norm_num) h hc
  exact ⟨r, h, (init_iff _ _ _ r h hs _ hd).2.1 (by simp [exDims])⟩

/-- A library and a physics with which all twelve grid points end normally. -/
def exWorldR : World ℝ Unit where
  ops := ⟨fun _ _ => true, id, 0, fun _ => 0⟩
  gsl := fun _ _ => ⟨[], fun _ => ⟨[], Vector.ofFn fun _ => 7, false, false⟩⟩
  calculate := fun _ _ => .ok ()

def exLook : Look Unit := ⟨fun _ _ => 0, fun _ => 0⟩

example : (match start exLitM false (exM "R0c1" 4 10) with
    | .ok (r, _, p) => (List.range p.total).all fun i =>
        match evalIndex (fun _ => exWorldR) exLook r p i with
        | .ok _ => true
        | .error _ => false
    | .error _ => false) = true := by decide +kernel

/-- Without room for an iteration all of them leave the array. -/
example : (match start exLitM false (exM "R0c1" 4 0) with
    | .ok (r, _, p) => (List.range p.total).all fun i =>
        match evalIndex (fun _ => exWorldR) exLook r p i with
        | .error (.undefined m) => m == "iter_eta_bar[0]"
        | _ => false
    | .error _ => false) = true := by decide +kernel

end Qsc.MultiScanPipeline
