import Verif.Lemmas.Pipeline
import Verif.Props.OptResid

/-!
# Properties C73-C75: runs that start from an input file
-/

namespace Qsc.Pipeline

open Qsc.Sections Qsc.OptState Qsc.Spec.Sections Qsc.Spec.Pipeline Qsc.Toml
open Qsc.Spec.OptState Qsc.Spec.OptLoop

variable {F P : Type}

/-! ## C73: no member without a value -/

/-- The constructors give every member that has a key in the input file a value of its type. -/
theorem constructors_typed (lit : String → F) (single : Bool) :
    Typed optDoc (optNew lit single).mem ∧ Typed scanDoc (scanNew lit single).mem ∧
      Typed multiScanDoc (multiScanNew lit).mem :=
  ⟨optNew_typed lit single, scanNew_typed lit single, multiScanNew_typed lit⟩

/-- After reading any file that is accepted, every member that has a key in the input file has a
value of its type: nothing uninitialised is used later. -/
theorem initialised (ofInt : Int → F) (zero : F) (lit : String → F) (single : Bool) (f : File F)
    (hf : WellFormed f) :
    (∀ r, optInput ofInt zero f (optNew lit single) = .ok r → Typed optDoc r.mem) ∧
    (∀ r, scanInput ofInt zero f (scanNew lit single) = .ok r → Typed scanDoc r.mem) ∧
    (∀ r, multioptInput ofInt zero f (optNew lit single) multioptNew = .ok r →
      Typed multioptDoc r.mem ∧ ∀ o ∈ r.opts, Typed optDoc o.mem) ∧
    ∀ r, multiScanInput ofInt zero f (optNew lit single) (multiScanNew lit) = .ok r →
      Typed multiScanDoc r.mem ∧ Typed multioptDoc r.ref.mem ∧
        ∀ o ∈ r.ref.opts, Typed optDoc o.mem := by
  have hm : ∀ r, multioptInput ofInt zero f (optNew lit single) multioptNew = .ok r →
      Typed multioptDoc r.mem ∧ ∀ o ∈ r.opts, Typed optDoc o.mem := by
    intro r h
    obtain ⟨t, n, -, hn, -, ⟨-, hr, -⟩, -, hs⟩ :=
      (multioptInput_iff ofInt zero f hf _ _ _).1 h
    constructor
    · intro κ k hk
      have hk' : κ = .int ∧ (k = "verbose" ∨ k = "nopts") := by
        obtain ⟨ks, h1, h2⟩ := hk
        simp only [multioptDoc, List.mem_cons, List.not_mem_nil, or_false, Prod.mk.injEq] at h1
        obtain ⟨rfl, rfl⟩ := h1
        exact ⟨rfl, by simpa using h2⟩
      obtain ⟨h1, h2⟩ := hr κ k hk
      obtain ⟨rfl, rfl | rfl⟩ := hk'
      · by_cases hx : ∃ x, ("verbose", x) ∈ t
        · obtain ⟨x, hx⟩ := hx
          obtain ⟨v, ⟨i, -, rfl⟩, e⟩ := h2 x hx
          exact ⟨_, e, i, rfl⟩
        · exact ⟨_, h1 fun x h => hx ⟨x, h⟩, 0, rfl⟩
      · obtain ⟨v, ⟨i, -, rfl⟩, e⟩ := h2 _ hn
        exact ⟨_, e, i, rfl⟩
    · intro o ho
      obtain ⟨j, hj⟩ := List.getElem?_of_mem ho
      exact optInput_typed ofInt zero f hf _ o
        (make_names_typed (optNew_typed lit single) false) (hs j o hj)
  refine ⟨fun r h => optInput_typed ofInt zero f hf _ r (optNew_typed lit single) h,
    fun r h => (scanInput_ready ofInt zero f hf _ r (scanNew_typed lit single) h).1, hm,
    fun r h => ?_⟩
  obtain ⟨h1, t, -, ⟨-, h2, -⟩, -⟩ := (multiScanInput_iff ofInt zero f hf _ _ r).1 h
  exact ⟨typed_of_read (multiScanNew_typed lit) h2, hm _ h1⟩

/-! ## C74: an optimization from an input file -/

/-- An optimization from an accepted file with non-negative sizes never leaves an array and no
`assert` fails.  If it ends normally: the flags cover the amplitudes of the file; at most `max_iter`
columns of the history were written, in order; every array has the modes of the file and
`fourier_refine` more; everything that was not to be varied is as in the file. -/
theorem optRun_fine [Zero F] (w : World F P) (ofInt : Int → F) (lit : String → F) (single : Bool)
    (f : File F) (hf : WellFormed f) (r : OptObj F)
    (h : optInput ofInt 0 f (optNew lit single) = .ok r) (s : Raw) (hr : IsRaw r.mem s)
    (hs : Natural s) (hl : s.nphis.length < 2 ^ 63) (hn : 0 ≤ r.q.nphi) :
    Fine (fun st => Sized s.fl (configOf r.q) ∧
      st.log.length = st.nIter ∧ (st.nIter : Int) ≤ s.maxIter ∧
      st.hist = st.log.map some ++ List.replicate (s.maxIter.toNat - st.nIter) none ∧
      AllSize (r.q.R0c.length + s.refine.toNat) st.q ∧
      (∀ x ∈ st.log, AllSize (r.q.R0c.length + s.refine.toNat) x.q) ∧
      ∀ p, ¬ MayVary s.fl r.q.R0c.length s.refine.toNat p →
        get st.q p = get (grow s.refine.toNat (configOf r.q)) p)
      (optRun w ofInt lit single f) := by
  have ht := optInput_typed ofInt 0 f hf _ r (optNew_typed lit single) h
  obtain ⟨wt, s', -, hr', hw⟩ := readyOpt_typed w r ht
  obtain rfl := isRaw_unique hr hr'
  obtain ⟨hq, hpos⟩ := opt_sizes ofInt 0 f hf _ r h
  have hnp : s.nphis = [] ∨ s.nphis.length = s.refine.toNat + 1 := by
    rcases optInput_nphi ofInt 0 f hf _ r h _ _ hr.nphis hr.refine hl
      (by have := hs.refine.1; omega) hs.refine.2 with h | h
    · exact Or.inl h
    · right; have := hs.refine.1; omega
  unfold optRun
  rw [h]
  simp only [liftInput, Except.bind]
  rw [hw]
  simp only
  rw [runOpt_eq _ _ hs _ _ _ hn]
  refine fine_of_safe (OptLoop.Safe.mono (OptLoop.optimize_safe (w.env wt) _ _ (configOf r.q) _
    r.q.R0c.length hq ?_) ?_)
  · simpa using hnp
  · rintro st ⟨hz, ho⟩
    refine ⟨hz, ho.hist.len, ?_, ho.hist.hist, ho.size, fun x hx => (ho.recs x hx).size, ho.fixed⟩
    have h1 : st.nIter ≤ s.maxIter.toNat := ho.hist.le
    have h2 := hs.maxIter
    omega

/-- A negative `fourier_refine` is accepted by `Opt::input`; the optimizer then writes outside its
arrays. -/
theorem negative_refine [Zero F] (w : World F P) (ofInt : Int → F) (lit : String → F)
    (single : Bool) (f : File F) (hf : WellFormed f) (r : OptObj F)
    (h : optInput ofInt 0 f (optNew lit single) = .ok r) (s : Raw) (hr : IsRaw r.mem s)
    (hneg : s.refine < 0) (hnew : 0 ≤ r.q.R0c.length + s.refine) (hm : 0 ≤ s.maxIter)
    (hns : ∀ n ∈ s.nphis, 0 ≤ n) (hn : 0 ≤ r.q.nphi) (hz : Sized s.fl (configOf r.q)) :
    optRun w ofInt lit single f = .error (.run (.undefined "q.R0c")) := by
  have ht := optInput_typed ofInt 0 f hf _ r (optNew_typed lit single) h
  obtain ⟨wt, s', -, hr', hw⟩ := readyOpt_typed w r ht
  obtain rfl := isRaw_unique hr hr'
  unfold optRun
  rw [h]
  simp only [liftInput, Except.bind]
  rw [hw]
  simp only
  unfold runOpt
  rw [nat?_ok hn, nat?_ok hm, nats_ok hns]
  simp only [Except.bind, Int.not_le.2 hneg, if_false]
  rw [nat?_ok (by exact hnew)]
  simp only
  rw [if_neg (by simp [hz.R0c]), if_neg (by simp [hz.R0s]), if_neg (by simp [hz.Z0c]),
    if_neg (by simp [hz.Z0s])]

theorem terms_zero [Zero F] (o : OptResid.Ops F) (wt : OptResid.Weights F) (n : Nat) (hn : 0 < n)
    (hw : ∀ k x, (k, x) ∈ weightKeys wt → o.lt 0 x = false) : termsOf o wt n = 0 := by
  have : ∀ b : Spec.OptResid.Block, o.lt 0 (b.weight wt) = false := by
    intro b
    refine hw ("weight_" ++ b.name) _ ?_
    cases b <;> simp [weightKeys, Spec.OptResid.Block.weight, Spec.OptResid.Block.name]
  rw [termsOf, (OptResid.refused_iff o wt n hn).2 this]

/-- Without a positive weight nothing is optimized. -/
theorem no_weight [Zero F] (w : World F P) (ofInt : Int → F) (lit : String → F)
    (single : Bool) (f : File F) (hf : WellFormed f) (r : OptObj F)
    (h : optInput ofInt 0 f (optNew lit single) = .ok r) (s : Raw) (hr : IsRaw r.mem s)
    (hs : Natural s) (hn : 0 ≤ r.q.nphi) (hm : 2 ≤ s.maxIter)
    (hz : Sized s.fl (configOf r.q))
    (hw : ∀ wt, IsWeights r.mem wt → ∀ k x, (k, x) ∈ weightKeys wt → w.ops.lt 0 x = false) :
    optRun w ofInt lit single f =
      .error (.run (.throw "There must be at least 1 residual term.")) := by
  have ht := optInput_typed ofInt 0 f hf _ r (optNew_typed lit single) h
  obtain ⟨wt, s', hwt, hr', hrd⟩ := readyOpt_typed w r ht
  obtain rfl := isRaw_unique hr hr'
  obtain ⟨hq, hpos⟩ := opt_sizes ofInt 0 f hf _ r h
  have hodd : ∀ n, 0 < Setup.oddNphi n := by
    intro n; unfold Setup.oddNphi; split <;> omega
  have hterm : ∀ n, termsOf w.ops wt (Setup.oddNphi n) = 0 := fun n =>
    terms_zero w.ops wt _ (hodd n) (hw wt hwt)
  unfold optRun
  rw [h]
  simp only [liftInput, Except.bind]
  rw [hrd]
  simp only
  rw [runOpt_eq _ _ hs _ _ _ hn]
  unfold OptLoop.optimize
  dsimp only
  rw [if_neg (by simp [hz.R0c]), if_neg (by simp [hz.R0s]), if_neg (by simp [hz.Z0c]),
    if_neg (by simp [hz.Z0s])]
  have f1 := hz.R0c.trans hq.R0c
  have f2 := hz.R0s.trans hq.R0s
  have f3 := hz.Z0c.trans hq.Z0c
  have f4 := hz.Z0s.trans hq.Z0s
  rw [hq.R0c, OptLoop.pad_eq _ _ _ _ hq.R0c, OptLoop.pad_eq _ _ _ _ hq.R0s,
    OptLoop.pad_eq _ _ _ _ hq.Z0c, OptLoop.pad_eq _ _ _ _ hq.Z0s, OptLoop.pad_eq _ _ _ _ f1,
    OptLoop.pad_eq _ _ _ _ f2, OptLoop.pad_eq _ _ _ _ f3, OptLoop.pad_eq _ _ _ _ f4]
  simp only [Except.bind]
  have hmax : ¬ s.maxIter.toNat ≤ 0 + 1 := by omega
  have hch : ∀ st : OptLoop.St F P, st.nphi = Setup.oddNphi r.q.nphi.toNat →
      OptLoop.chooseNphi (w.env wt) (s.nphis.map Int.toNat) 0 st =
        .error (.throw "There must be at least 1 residual term.") := by
    intro st hst
    unfold OptLoop.chooseNphi OptLoop.countTerms
    cases s.nphis with
    | nil => simp [hst, World.env, hterm]
    | cons a l => simp [World.env, hterm]
  rw [OptLoop.refineLoop.eq_def]
  simp only [hmax, if_false, OptLoop.enable, Nat.lt_irrefl, Except.bind]
  rw [hch _ rfl]
  rfl

/-- In particular a file without any `weight_...` key is refused, because the default weights are
negative. -/
theorem no_weight_keys [Zero F] (w : World F P) (ofInt : Int → F) (lit : String → F)
    (single : Bool) (f : File F) (hf : WellFormed f) (r : OptObj F)
    (h : optInput ofInt 0 f (optNew lit single) = .ok r) (s : Raw) (hr : IsRaw r.mem s)
    (hs : Natural s) (hn : 0 ≤ r.q.nphi) (hm : 2 ≤ s.maxIter)
    (hz : Sized s.fl (configOf r.q)) (hlit : w.ops.lt 0 (lit "-1.0") = false) (t : Table F)
    (ht : ("opt", t) ∈ f) (hk : ∀ k x, (k, x) ∈ t → ∀ wt : OptResid.Weights F,
      k ∉ (weightKeys wt).map (·.1)) :
    optRun w ofInt lit single f =
      .error (.run (.throw "There must be at least 1 residual term.")) := by
  refine no_weight w ofInt lit single f hf r h s hr hs hn hm hz fun wt hwt k x hx => ?_
  obtain ⟨-, -, -, t', ht', H⟩ := (optInput_iff ofInt 0 f hf _ r).1 h
  obtain rfl : t' = t := by
    have h1 := (findSection_iff hf.1 _ _).2 ht'
    rw [show (optNew lit single).group = "opt" from rfl, (findSection_iff hf.1 _ _).2 ht] at h1
    exact (Except.ok.inj h1).symm
  have hd : optDoc.Has .flt k ∧ OptInitial r.q.R0c.length (optNew lit single).mem k =
      some (.flt (lit "-1.0")) := by
    refine ⟨⟨_, List.mem_cons_of_mem _ (List.mem_cons_of_mem _ (List.mem_cons_of_mem _
      (List.mem_cons_of_mem _ (List.mem_cons_self ..)))), ?_⟩, ?_⟩
    all_goals
      simp only [weightKeys, List.mem_cons, List.not_mem_nil, or_false, Prod.mk.injEq] at hx
      rcases hx with h | h | h | h | h | h | h | h | h | h | h | h | h | h | h | h | h | h | h | h | h
        <;> obtain ⟨rfl, -⟩ := h <;> simp [OptInitial, optNew, members, lits]
  have e := (H.member _ _ hd.1).1 fun y hy => hk k y hy wt (List.mem_map.2 ⟨_, hx, rfl⟩)
  rw [hd.2, hwt k x hx] at e
  simp only [Option.some.injEq, Val.flt.injEq] at e
  rw [e, hlit]

/-! ## C75: a multi-stage optimization from an input file -/

/-- The stages of `Model/OptLoop` that belong to the stages read from a file. -/
structure IsStage [Zero F] (w : World F P) (o : OptObj F) (g : OptLoop.Stage F P) : Prop where
  raw : ∃ s, IsRaw o.mem s ∧
    g.set = ⟨s.fl, s.refine.toNat, s.maxIter.toNat, s.nphis.map Int.toNat⟩
  env : ∃ wt, IsWeights o.mem wt ∧ g.env = w.env wt
  start : g.start = ⟨configOf o.q, o.q.nphi.toNat, o.q.order_r_option⟩

theorem runStages_eq [Zero F] (w : Nat → World F P) (os : List (OptObj F)) (j : Nat)
    (prev : Option (OptLoop.Start F)) (n : Nat)
    (ht : ∀ o ∈ os, Typed optDoc o.mem ∧ 0 ≤ o.q.nphi ∧ ∀ s, IsRaw o.mem s → Natural s) :
    ∃ ss : List (OptLoop.Stage F P), ss.length = os.length ∧
      (∀ i o g, os[i]? = some o → ss[i]? = some g → IsStage (w (j + i)) o g) ∧
      runStages w j os prev n = liftRun (OptLoop.runStages ss prev n) := by
  induction os generalizing j prev n with
  | nil => exact ⟨[], rfl, by simp, rfl⟩
  | cons o os ih =>
    obtain ⟨h1, h2, h3⟩ := ht o (by simp)
    obtain ⟨wt, s, hw, hs, hr⟩ := readyOpt_typed (w j) o h1
    let g : OptLoop.Stage F P := ⟨(w j).env wt,
      ⟨s.fl, s.refine.toNat, s.maxIter.toNat, s.nphis.map Int.toNat⟩,
      ⟨configOf o.q, o.q.nphi.toNat, o.q.order_r_option⟩⟩
    have hg : IsStage (w j) o g := ⟨⟨s, hs, rfl⟩, ⟨wt, hw, rfl⟩, rfl⟩
    have hrun : (prev.elim (runOpt ((w j).env wt) s o.q.order_r_option (configOf o.q) o.q.nphi)
        fun a => runOpt ((w j).env wt) s a.order a.q a.nphi) =
        liftRun (OptLoop.optimize g.env g.set (prev.getD g.start).order (prev.getD g.start).q
          (prev.getD g.start).nphi) := by
      cases prev with
      | none => exact runOpt_eq _ _ (h3 s hs) _ _ _ h2
      | some a => exact runOpt_eq _ _ (h3 s hs) _ _ _ (by omega)
    have hord : (prev.elim o.q.order_r_option fun a => a.order) = (prev.getD g.start).order := by cases prev <;> rfl
    cases hopt : OptLoop.optimize g.env g.set (prev.getD g.start).order (prev.getD g.start).q
        (prev.getD g.start).nphi with
    | error e =>
      obtain ⟨ss, k1, k2, -⟩ := ih (j + 1) none 0 fun o' ho => ht o' (by simp [ho])
      refine ⟨g :: ss, by simp [k1], ?_, ?_⟩
      · intro i o' g' ho hg'
        cases i with
        | zero => simp only [List.getElem?_cons_zero, Option.some.injEq] at ho hg'
                  subst ho hg'; exact hg
        | succ i =>
          have := k2 i o' g' (by simpa using ho) (by simpa using hg')
          rwa [show j + 1 + i = j + (i + 1) by omega] at this
      · rw [runStages, OptLoop.runStages, hr]
        simp only [Except.bind, hrun, hopt, liftRun]
    | ok st =>
      obtain ⟨ss, k1, k2, k3⟩ := ih (j + 1) (some ⟨st.q, st.nphi, (prev.getD g.start).order⟩)
        (n + st.nEvals) fun o' ho => ht o' (by simp [ho])
      refine ⟨g :: ss, by simp [k1], ?_, ?_⟩
      · intro i o' g' ho hg'
        cases i with
        | zero => simp only [List.getElem?_cons_zero, Option.some.injEq] at ho hg'
                  subst ho hg'; exact hg
        | succ i =>
          have := k2 i o' g' (by simpa using ho) (by simpa using hg')
          rwa [show j + 1 + i = j + (i + 1) by omega] at this
      · rw [runStages, OptLoop.runStages, hr]
        simp only [Except.bind, hrun, hopt, liftRun, hord, k3]
        cases OptLoop.runStages ss (some ⟨st.q, st.nphi, (prev.getD g.start).order⟩)
          (n + st.nEvals) <;> rfl

/-- Running stages never leaves an array; the flags and arrays of each stage have the size that the
stages before have produced. -/
theorem runStages_safe [Zero F] (ss : List (OptLoop.Stage F P)) (first : Option (OptLoop.Start F))
    (n M : Nat)
    (hM : ∀ a, first.or (ss[0]?.map (·.start)) = some a → AllSize M a.q)
    (hn : ∀ g ∈ ss, g.set.nphis = [] ∨ g.set.nphis.length = g.set.extra + 1) :
    Safe (fun r => r.1.length = ss.length ∧ ∀ i g st, ss[i]? = some g → r.1[i]? = some st →
      g.set.fl.R0c.length = M + ((ss.take i).map fun k => k.set.extra).sum ∧
      AllSize (M + ((ss.take (i + 1)).map fun k => k.set.extra).sum) st.q)
      (OptLoop.runStages ss first n) := by
  induction ss generalizing first n M with
  | nil => exact ⟨rfl, by simp⟩
  | cons g ss ih =>
    rw [OptLoop.runStages]
    have hst : AllSize M (first.getD g.start).q := by
      apply hM
      cases first <;> simp
    refine OptLoop.Safe.bind (OptLoop.optimize_safe g.env g.set _ _ _ M hst
      (hn g (by simp))) ?_
    rintro st ⟨hz, ho⟩
    have hR : g.set.fl.R0c.length = M := hz.R0c.trans hst.R0c
    refine OptLoop.Safe.bind (ih (some ⟨st.q, st.nphi, (first.getD g.start).order⟩) (n + st.nEvals)
      (M + g.set.extra) (by simpa using ho.size) fun g' hg' => hn g' (by simp [hg'])) ?_
    rintro r ⟨h1, h2⟩
    refine ⟨by simp [h1], ?_⟩
    intro i g' st' hg hs
    cases i with
    | zero =>
      simp only [List.getElem?_cons_zero, Option.some.injEq] at hg hs
      subst hg hs
      exact ⟨by simpa using hR, by simpa using ho.size⟩
    | succ i =>
      obtain ⟨k1, k2⟩ := h2 i g' st' (by simpa using hg) (by simpa using hs)
      constructor
      · rw [k1, List.take_succ_cons, List.map_cons, List.sum_cons]; omega
      · rw [List.take_succ_cons, List.map_cons, List.sum_cons, ← Nat.add_assoc]
        exact k2

/-- `fourier_refine` of a stage. -/
def refineOf (o : OptObj F) : Nat :=
  match o.mem "fourier_refine" with
  | some (.int k) => k.toNat
  | _ => 0

/-- A multi-stage optimization from an accepted file with non-negative sizes never leaves an array.
If it ends normally, every stage of the file has run once, the flags given for stage `i` cover the
modes of the file and those added by the stages before, and its arrays have those modes and its own
`fourier_refine` more. -/
theorem multioptRun_fine [Zero F] (w : Nat → World F P) (ofInt : Int → F) (lit : String → F)
    (single : Bool) (f : File F) (hf : WellFormed f) (r : MultiOptObj F)
    (h : multioptInput ofInt 0 f (optNew lit single) multioptNew = .ok r)
    (hs : ∀ o ∈ r.opts, 0 ≤ o.q.nphi ∧
      ∀ s, IsRaw o.mem s → Natural s ∧ s.nphis.length < 2 ^ 63) (N : Nat)
    (hN : ∀ o, r.opts[0]? = some o → o.q.R0c.length = N) :
    Fine (fun res => res.1.length = r.opts.length ∧
      ∀ i o st, r.opts[i]? = some o → res.1[i]? = some st →
        (∃ l, o.mem "vary_R0c" = some (.bools l) ∧
          l.length = N + ((r.opts.take i).map refineOf).sum) ∧
        AllSize (N + ((r.opts.take (i + 1)).map refineOf).sum) st.q)
      (multioptRun w ofInt lit single f) := by
  obtain ⟨t, n, -, -, -, -, -, hst⟩ := (multioptInput_iff ofInt 0 f hf _ _ r).1 h
  have htyp := ((initialised ofInt 0 lit single f hf).2.2.1 r h).2
  obtain ⟨ss, k1, k2, k3⟩ := runStages_eq w r.opts 0 none 0 fun o ho =>
    ⟨htyp o ho, (hs o ho).1, fun s h => ((hs o ho).2 s h).1⟩
  have hget : ∀ (i : Nat) (g : OptLoop.Stage F P), ss[i]? = some g → ∃ o, r.opts[i]? = some o := by
    intro i g hg
    have : i < r.opts.length := by rw [← k1]; exact (List.getElem?_eq_some_iff.1 hg).1
    exact ⟨_, List.getElem?_eq_getElem this⟩
  have hex : ss.map (fun g => g.set.extra) = r.opts.map refineOf := by
    apply List.ext_getElem?
    intro i
    rw [List.getElem?_map, List.getElem?_map]
    cases hg : ss[i]? with
    | none =>
      rw [List.getElem?_eq_none_iff, k1, ← List.getElem?_eq_none_iff] at hg
      rw [hg]; rfl
    | some g =>
      obtain ⟨o, ho⟩ := hget i g hg
      obtain ⟨s, e1, e2⟩ := (k2 i o g ho hg).raw
      rw [ho]
      simp [e2, refineOf, e1.refine]
  have htake : ∀ i, ((ss.take i).map fun g => g.set.extra) = (r.opts.take i).map refineOf := by
    intro i; rw [List.map_take, hex, List.map_take]
  unfold multioptRun
  rw [h]
  simp only [liftInput, Except.bind]
  rw [k3]
  refine fine_of_safe (OptLoop.Safe.mono (runStages_safe ss none 0 N ?_ ?_) ?_)
  · intro a ha
    simp only [Option.none_or, Option.map_eq_some_iff] at ha
    obtain ⟨g, hg, rfl⟩ := ha
    obtain ⟨o, ho⟩ := hget 0 g hg
    rw [(k2 0 o g ho hg).start, ← hN o ho]
    exact (opt_sizes ofInt 0 f hf _ o (hst 0 o ho)).1
  · intro g hg
    obtain ⟨i, hi⟩ := List.getElem?_of_mem hg
    obtain ⟨o, ho⟩ := hget i g hi
    obtain ⟨s, e1, e2⟩ := (k2 i o g ho hi).raw
    obtain ⟨n1, n2⟩ := (hs o (List.mem_of_getElem? ho)).2 s e1
    rw [e2]
    rcases optInput_nphi ofInt 0 f hf _ o (hst i o ho) _ _ e1.nphis e1.refine n2
      (by have := n1.refine.1; omega) n1.refine.2 with h | h
    · exact Or.inl (by simp [h])
    · right
      have := n1.refine.1
      simp only [List.length_map]
      omega
  · rintro res ⟨l1, l2⟩
    refine ⟨l1.trans k1, fun i o st ho hs' => ?_⟩
    have hi : i < ss.length := by rw [k1]; exact (List.getElem?_eq_some_iff.1 ho).1
    have hg := List.getElem?_eq_getElem hi
    obtain ⟨m1, m2⟩ := l2 i _ st hg hs'
    obtain ⟨s, e1, e2⟩ := (k2 i o _ ho hg).raw
    rw [e2, htake] at m1
    rw [htake] at m2
    exact ⟨⟨_, e1.R0c, m1⟩, m2⟩

/-- All stages start from the same section `[qsc]`. -/
theorem same_start (ofInt : Int → F) (zero : F) (f : File F) (hf : WellFormed f) (new : OptObj F)
    (d r : MultiOptObj F) (h : multioptInput ofInt zero f new d = .ok r) (a b : OptObj F)
    (ha : a ∈ r.opts) (hb : b ∈ r.opts) : a.q = b.q := by
  obtain ⟨t, n, -, -, -, -, -, hst⟩ := (multioptInput_iff ofInt zero f hf _ _ r).1 h
  obtain ⟨i, hi⟩ := List.getElem?_of_mem ha
  obtain ⟨j, hj⟩ := List.getElem?_of_mem hb
  obtain ⟨-, -, ⟨t1, h1, q1⟩, -⟩ := (optInput_iff ofInt zero f hf _ a).1 (hst i a hi)
  obtain ⟨-, -, ⟨t2, h2, q2⟩, -⟩ := (optInput_iff ofInt zero f hf _ b).1 (hst j b hj)
  obtain rfl : t1 = t2 := by
    have h1 := (findSection_iff hf.1 _ _).2 h1
    rw [(findSection_iff hf.1 _ _).2 h2] at h1
    exact (Except.ok.inj h1).symm
  rw [q1] at q2
  exact Except.ok.inj q2

/-- After a refinement the next stages need explicit flags: with the default flags the run cannot
end normally. -/
theorem default_flags_refused [Zero F] (w : Nat → World F P) (ofInt : Int → F) (lit : String → F)
    (single : Bool) (f : File F) (hf : WellFormed f) (r : MultiOptObj F)
    (h : multioptInput ofInt 0 f (optNew lit single) multioptNew = .ok r)
    (hs : ∀ o ∈ r.opts, 0 ≤ o.q.nphi ∧
      ∀ s, IsRaw o.mem s → Natural s ∧ s.nphis.length < 2 ^ 63) (i : Nat) (o : OptObj F)
    (ho : r.opts[i]? = some o) (hpos : 0 < ((r.opts.take i).map refineOf).sum) (t : Table F)
    (ht : ("opt" ++ toString i, t) ∈ f) (hk : ∀ x, ("vary_R0c", x) ∉ t) :
    ∃ m, multioptRun w ofInt lit single f = .error (.run (.throw m)) := by
  have hN : ∀ o', r.opts[0]? = some o' → o'.q.R0c.length = o.q.R0c.length := fun o' ho' => by
    rw [same_start ofInt 0 f hf _ _ r h o' o (List.mem_of_getElem? ho') (List.mem_of_getElem? ho)]
  have key := multioptRun_fine w ofInt lit single f hf r h hs o.q.R0c.length hN
  cases hrun : multioptRun w ofInt lit single f with
  | error e => rw [hrun] at key; obtain ⟨m, rfl⟩ := key; exact ⟨m, rfl⟩
  | ok res =>
    rw [hrun] at key
    obtain ⟨h1, h2⟩ := key
    have hi : i < res.1.length := by rw [h1]; exact (List.getElem?_eq_some_iff.1 ho).1
    obtain ⟨⟨l, e1, e2⟩, -⟩ := h2 i o _ ho (List.getElem?_eq_getElem hi)
    obtain ⟨t', n, -, -, -, -, -, hst⟩ := (multioptInput_iff ofInt 0 f hf _ _ r).1 h
    obtain ⟨l', e3, e4, -⟩ := optInput_flags ofInt 0 f hf _ o (hst i o ho) t ht "vary_R0c" (by simp)
    rw [e1] at e3
    cases e3
    have := e4 hk
    omega

/-! ## Examples

Literals and numbers are integers here. -/

def exLit (s : String) : Int := if s = "-1.0" then -1 else if s = "1.0" then 1 else 0

/-- A library that evaluates a trial, accepts it and converges. -/
def exWorld : World Int Int where
  ops := ⟨fun a b => decide (a < b), id, 0, fun n => n⟩
  gsl := OptLoop.moving.gsl
  calculate := OptLoop.moving.calculate

def exQsc : Table Int :=
  [("nfp", .int 4), ("order_r_option", .str "r2.1"), ("R0c", .arr [.flt 1, .flt 17]),
   ("Z0s", .arr [.flt 0, .flt 15]), ("nphi", .int 31)]

/-- A file for a single optimization. -/
def exFile (refine : Int) (weight : Key) : File Int :=
  [("qsc", exQsc),
   ("opt", [(weight, .flt 2), ("fourier_refine", .int refine), ("max_iter", .int 10),
      ("algorithm", .str "dogleg"), ("vary_B2c", .int 0)])]

example : WellFormed (exFile 1 "weight_B20") := by
  refine ⟨by simp [exFile], ?_⟩
  simp [exFile, exQsc]

/-- The file is accepted, with these settings. -/
example : ((optInput id 0 (exFile 1 "weight_B20") (optNew exLit false)).toOption.bind fun r =>
      rawOf r.mem).map (fun s => (s.refine, s.maxIter, s.nphis, s.fl)) =
    some (1, 10, [], ⟨true, false, false, false, [false, true], [false, false], [false, false],
      [false, true]⟩) := by decide +kernel

/-- The run: `eta_bar`, `R0c[1]` and `Z0s[1]` are varied, then also the new mode. -/
example : (optRun exWorld id exLit false (exFile 1 "weight_B20")).toOption.map (fun st =>
      (st.nIter, st.q.R0c, st.q.Z0s, st.q.R0s, st.q.B2c)) =
    some (4, [1, 7, 7], [0, 7, 7], [0, 0, 0], 0) := by decide +kernel

/-- A negative `fourier_refine`. -/
example : (match optRun exWorld id exLit false (exFile (-1) "weight_B20") with
    | .ok _ => none
    | .error e => some e) = some (.run (.undefined "q.R0c")) := by decide +kernel

/-- No weight. -/
example : (match optRun exWorld id exLit false (exFile 1 "target_iota") with
    | .ok _ => none
    | .error e => some e) =
      some (.run (.throw "There must be at least 1 residual term.")) := by decide +kernel

/-- Two stages; the second one with or without flags for the new mode. -/
def exFile2 (flags : Table Int) : File Int :=
  [("qsc", exQsc), ("multiopt", [("nopts", .int 2)]),
   ("opt0", [("weight_B20", .flt 2), ("fourier_refine", .int 1), ("max_iter", .int 10)]),
   ("opt1", [("weight_B20", .flt 3), ("max_iter", .int 5), ("nphi", .arr [.int 50])] ++ flags)]

def exFlags : Table Int :=
  [("vary_R0c", .arr [.bool false, .bool false, .bool true]),
   ("vary_R0s", .arr [.bool false, .bool false, .bool false]),
   ("vary_Z0c", .arr [.bool false, .bool false, .bool false]),
   ("vary_Z0s", .arr [.bool false, .bool true, .bool true])]

example : WellFormed (exFile2 exFlags) := by
  refine ⟨by simp [exFile2], ?_⟩
  simp [exFile2, exFlags, exQsc]

example : (multioptRun (fun _ => exWorld) id exLit false (exFile2 exFlags)).toOption.map (fun r =>
      r.1.map fun st => (st.nIter, st.nphi, st.q.R0c)) =
    some [(4, 31, [1, 7, 7]), (2, 51, [1, 7, 7])] := by decide +kernel

example : (match multioptRun (fun _ => exWorld) id exLit false (exFile2 []) with
    | .ok _ => none
    | .error e => some e) = some (.run (.throw "Size of vary_R0c is incorrect")) := by decide +kernel

/-- A random scan: two bounds are longer than the others. -/
def exScan : File Int :=
  [("qsc", exQsc), ("scan", [("R0c_min", .arr [.flt 1, .flt 2]), ("R0c_max", .arr [.flt 1, .flt 5]),
    ("keep_all", .int 0), ("max_seconds", .int 30)])]

example : WellFormed exScan := by
  refine ⟨by simp [exScan], ?_⟩
  simp [exScan, exQsc]

example : (scanInput id 0 exScan (scanNew exLit false)).toOption.map (fun r =>
      (boundArrays.map r.mem, r.mem "keep_all", r.mem "max_seconds", r.mem "max_keep_per_proc")) =
    some ([some (.flts [1, 2]), some (.flts [1, 5]), some (.flts [0, 0]), some (.flts [0, 0]),
      some (.flts [0, 0]), some (.flts [0, 0]), some (.flts [0, 0]), some (.flts [0, 0])],
      some (.bool false), some (.flt 30), some (.int 1000)) := by decide +kernel

/-- A misspelt key. -/
example : (match scanInput id 0 [("qsc", exQsc), ("scan", [("R0c_mim", .arr [.flt 1])])]
      (scanNew exLit false) with
    | .ok _ => none
    | .error e => some e) = some (.toml (.unusedKey "R0c_mim")) := by decide +kernel

/-- A scan of multi-stage optimizations. -/
def exMulti (ns : List (Value Int)) : File Int :=
  exFile2 exFlags ++ [("multiopt_scan", [("params", .arr [.str "weight_B20", .str "R0c1"]),
    ("params_min", .arr [.flt 1, .flt 2]), ("params_max", .arr [.flt 5, .flt 7]),
    ("params_n", .arr ns), ("params_stage", .arr [.int (-1), .int 0]),
    ("params_log", .arr [.bool true, .bool false])])]

example : WellFormed (exMulti [.int 3, .int 4]) := by
  refine ⟨by simp [exMulti, exFile2], ?_⟩
  simp [exMulti, exFile2, exFlags, exQsc]

example : (multiScanInput id 0 (exMulti [.int 3, .int 4]) (optNew exLit false)
      (multiScanNew exLit)).toOption.map (fun r =>
      (r.ndim, r.ref.opts.length, r.mem "params", r.mem "params_n")) =
    some (2, 2, some (.strs ["weight_B20", "R0c1"]), some (.ints [3, 4])) := by decide +kernel

/-- One size is missing. -/
example : (match multiScanInput id 0 (exMulti [.int 3]) (optNew exLit false)
      (multiScanNew exLit) with
    | .ok _ => none
    | .error e => some e) = some .assert := by decide +kernel

end Qsc.Pipeline
