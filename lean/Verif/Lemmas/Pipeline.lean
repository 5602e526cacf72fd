import Verif.Spec.Pipeline
import Verif.Props.Sections
import Verif.Props.OptLoop
import Verif.Props.Toml

/-!
Lemmas on runs that start from an input file.
-/

namespace Qsc.Pipeline

open Qsc.Sections Qsc.OptState Qsc.Spec.Sections Qsc.Spec.Pipeline Qsc.Toml

variable {F P : Type}

/-! ## Constructors -/

theorem members_typed {d : Doc} {l : List (String × Val F)}
    (h : ∀ p ∈ d, ∀ k ∈ p.2, ∃ v, members l k = some v ∧ OfKind p.1 v) : Typed d (members l) := by
  rintro κ k ⟨ks, h1, h2⟩
  exact h (κ, ks) h1 k h2

theorem optNew_typed (lit : String → F) (single : Bool) : Typed optDoc (optNew lit single).mem := by
  refine members_typed ?_
  simp [optDoc, members, lits, OfKind]

theorem scanNew_typed (lit : String → F) (single : Bool) :
    Typed scanDoc (scanNew lit single).mem := by
  refine members_typed ?_
  simp [scanDoc, members, lits, OfKind]

theorem multiScanNew_typed (lit : String → F) : Typed multiScanDoc (multiScanNew lit).mem := by
  refine members_typed ?_
  simp [multiScanDoc, members, lits, OfKind]

/-! ## The members after reading -/

theorem initial_typed {o : Obj F} (n : Nat) (h : Typed optDoc o) :
    Typed optDoc (OptInitial n o) := by
  intro κ k hk
  have hv : k = "vary_R0c" ∨ k = "vary_Z0s" ∨ k = "vary_R0s" ∨ k = "vary_Z0c" → κ = .bools := by
    obtain ⟨ks, h1, h2⟩ := hk
    simp only [optDoc, List.mem_cons, List.not_mem_nil, or_false, Prod.mk.injEq] at h1
    rcases h1 with ⟨rfl, rfl⟩ | ⟨rfl, rfl⟩ | ⟨rfl, rfl⟩ | ⟨rfl, rfl⟩ | ⟨rfl, rfl⟩ <;>
      rintro (rfl | rfl | rfl | rfl) <;> simp at h2 ⊢
  unfold OptInitial
  split
  · rename_i h1
    obtain rfl := hv (by rcases h1 with h | h <;> simp [h])
    exact ⟨_, rfl, _, rfl⟩
  split
  · rename_i h1
    obtain rfl := hv (by rcases h1 with h | h <;> simp [h])
    exact ⟨_, rfl, _, rfl⟩
  · exact h κ k hk

theorem optInput_typed (ofInt : Int → F) (zero : F) (f : File F) (hf : WellFormed f)
    (d r : OptObj F) (hd : Typed optDoc d.mem) (h : optInput ofInt zero f d = .ok r) :
    Typed optDoc r.mem := by
  obtain ⟨-, -, -, t, -, H⟩ := (optInput_iff ofInt zero f hf d r).1 h
  exact typed_of_read (initial_typed _ hd) H.member

theorem make_names_typed {o : Obj F} (h : Typed optDoc o) (b : Bool) :
    Typed optDoc (fun m => if m = "make_names" then some (.bool b) else o m) := by
  intro κ k hk
  by_cases hm : k = "make_names"
  · subst hm
    obtain ⟨ks, h1, h2⟩ := hk
    simp only [optDoc, List.mem_cons, List.not_mem_nil, or_false, Prod.mk.injEq] at h1
    rcases h1 with ⟨rfl, rfl⟩ | ⟨rfl, rfl⟩ | ⟨rfl, rfl⟩ | ⟨rfl, rfl⟩ | ⟨rfl, rfl⟩
    · exact ⟨.bool b, by simp, b, rfl⟩
    all_goals simp at h2
  · simpa [hm] using h κ k hk

theorem typed_bool {o : Obj F} (h : Typed optDoc o) {k : String}
    (hk : k ∈ ["make_names", "vary_eta_bar", "vary_sigma0", "vary_B2c", "vary_B2s"]) :
    ∃ b, o k = some (.bool b) := by
  obtain ⟨v, hv, b, rfl⟩ := h .bool k ⟨_, by simp [optDoc], hk⟩
  exact ⟨b, hv⟩

theorem typed_int {o : Obj F} (h : Typed optDoc o) {k : String}
    (hk : k ∈ ["fourier_refine", "max_iter", "verbose"]) : ∃ b, o k = some (.int b) := by
  obtain ⟨v, hv, b, rfl⟩ := h .int k ⟨_, by simp [optDoc], hk⟩
  exact ⟨b, hv⟩

theorem typed_bools {o : Obj F} (h : Typed optDoc o) {k : String}
    (hk : k ∈ ["vary_R0c", "vary_R0s", "vary_Z0c", "vary_Z0s"]) : ∃ b, o k = some (.bools b) := by
  obtain ⟨v, hv, b, rfl⟩ := h .bools k ⟨_, by simp [optDoc], hk⟩
  exact ⟨b, hv⟩

theorem typed_flt {o : Obj F} (h : Typed optDoc o) {k : String}
    (hk : ∃ ks, (Kind.flt, ks) ∈ optDoc ∧ k ∈ ks) : ∃ b, o k = some (.flt b) := by
  obtain ⟨v, hv, b, rfl⟩ := h .flt k hk
  exact ⟨b, hv⟩

theorem rawOf_typed {o : Obj F} (h : Typed optDoc o) : ∃ s, rawOf o = some s ∧ IsRaw o s := by
  obtain ⟨b1, h1⟩ := typed_bool h (k := "vary_eta_bar") (by simp)
  obtain ⟨b2, h2⟩ := typed_bool h (k := "vary_sigma0") (by simp)
  obtain ⟨b3, h3⟩ := typed_bool h (k := "vary_B2c") (by simp)
  obtain ⟨b4, h4⟩ := typed_bool h (k := "vary_B2s") (by simp)
  obtain ⟨b5, h5⟩ := typed_bools h (k := "vary_R0c") (by simp)
  obtain ⟨b6, h6⟩ := typed_bools h (k := "vary_R0s") (by simp)
  obtain ⟨b7, h7⟩ := typed_bools h (k := "vary_Z0c") (by simp)
  obtain ⟨b8, h8⟩ := typed_bools h (k := "vary_Z0s") (by simp)
  obtain ⟨b9, h9⟩ := typed_int h (k := "fourier_refine") (by simp)
  obtain ⟨b10, h10⟩ := typed_int h (k := "max_iter") (by simp)
  obtain ⟨v, h11, b11, rfl⟩ := h .ints "nphi" ⟨["nphi"], by simp [optDoc], by simp⟩
  refine ⟨⟨⟨b1, b2, b3, b4, b5, b6, b7, b8⟩, b9, b10, b11⟩, ?_, h1, h2, h3, h4, h5, h6, h7, h8, h9,
    h10, h11⟩
  simp [rawOf, getBool, getBools, getInt, getInts, h1, h2, h3, h4, h5, h6, h7, h8, h9, h10, h11]

theorem isRaw_unique {o : Obj F} {s s' : Raw} (h : IsRaw o s) (h' : IsRaw o s') : s = s' := by
  obtain ⟨⟨_, _, _, _, _, _, _, _⟩, _, _, _⟩ := s
  obtain ⟨⟨_, _, _, _, _, _, _, _⟩, _, _, _⟩ := s'
  obtain ⟨a1, a2, a3, a4, a5, a6, a7, a8, a9, a10, a11⟩ := h
  obtain ⟨c1, c2, c3, c4, c5, c6, c7, c8, c9, c10, c11⟩ := h'
  rw [a1] at c1; rw [a2] at c2; rw [a3] at c3; rw [a4] at c4; rw [a5] at c5; rw [a6] at c6
  rw [a7] at c7; rw [a8] at c8; rw [a9] at c9; rw [a10] at c10; rw [a11] at c11
  simp only [Option.some.injEq, Val.bool.injEq, Val.bools.injEq, Val.int.injEq, Val.ints.injEq] at *
  subst_vars
  rfl

theorem getFlt_some {o : Obj F} {k : String} {x : F} (h : o k = some (.flt x)) :
    getFlt o k = some x := by simp [getFlt, h]

theorem weightsOf_typed {o : Obj F} (h : Typed optDoc o) :
    ∃ w, weightsOf o = some w ∧ IsWeights o w := by
  have key : ∀ k, (∃ ks, (Kind.flt, ks) ∈ optDoc ∧ k ∈ ks) → ∃ b, o k = some (.flt b) :=
    fun k hk => typed_flt h hk
  have H : ∀ k ∈ ["weight_B20", "weight_iota", "weight_elongation", "weight_curvature",
      "weight_R0", "weight_d2_volume_d_psi2", "weight_DMerc_times_r2", "weight_XY2",
      "weight_XY2Prime", "weight_XY2PrimePrime", "weight_Z2", "weight_Z2Prime", "weight_XY3",
      "weight_XY3Prime", "weight_XY3PrimePrime", "weight_grad_B", "weight_grad_grad_B",
      "weight_r_singularity", "weight_axis_length", "weight_standard_deviation_of_R",
      "weight_B20_mean"], ∃ b, o k = some (.flt b) := by
    intro k hk
    refine key k ⟨_, List.mem_cons_of_mem _ (List.mem_cons_of_mem _ (List.mem_cons_of_mem _
      (List.mem_cons_of_mem _ (List.mem_cons_self ..)))), ?_⟩
    simp only [List.mem_cons, List.not_mem_nil, or_false] at hk ⊢
    rcases hk with h | h | h | h | h | h | h | h | h | h | h | h | h | h | h | h | h | h | h | h | h
      <;> simp [h]
  simp only [List.forall_mem_cons] at H
  obtain ⟨⟨b1, h1⟩, ⟨b2, h2⟩, ⟨b3, h3⟩, ⟨b4, h4⟩, ⟨b5, h5⟩, ⟨b6, h6⟩, ⟨b7, h7⟩, ⟨b8, h8⟩, ⟨b9, h9⟩,
    ⟨b10, h10⟩, ⟨b11, h11⟩, ⟨b12, h12⟩, ⟨b13, h13⟩, ⟨b14, h14⟩, ⟨b15, h15⟩, ⟨b16, h16⟩, ⟨b17, h17⟩,
    ⟨b18, h18⟩, ⟨b19, h19⟩, ⟨b20, h20⟩, ⟨b21, h21⟩, -⟩ := H
  refine ⟨⟨b1, b2, b3, b4, b5, b6, b7, b8, b9, b10, b11, b12, b13, b14, b15, b16, b17, b18, b19, b20,
    b21⟩, ?_, ?_⟩
  · simp only [weightsOf, getFlt_some h1, getFlt_some h2, getFlt_some h3, getFlt_some h4,
      getFlt_some h5, getFlt_some h6, getFlt_some h7, getFlt_some h8, getFlt_some h9,
      getFlt_some h10, getFlt_some h11, getFlt_some h12, getFlt_some h13, getFlt_some h14,
      getFlt_some h15, getFlt_some h16, getFlt_some h17, getFlt_some h18, getFlt_some h19,
      getFlt_some h20, getFlt_some h21, Option.bind_some]
  · intro k x hx
    simp only [weightKeys, List.mem_cons, List.not_mem_nil, or_false, Prod.mk.injEq] at hx
    rcases hx with h | h | h | h | h | h | h | h | h | h | h | h | h | h | h | h | h | h | h | h | h
      <;> obtain ⟨rfl, rfl⟩ := h <;> assumption

/-- A read object can be run: no member is used without a value. -/
theorem readyOpt_typed [Zero F] (w : World F P) (r : OptObj F) (h : Typed optDoc r.mem) :
    ∃ wt s, IsWeights r.mem wt ∧ IsRaw r.mem s ∧ readyOpt w r = .ok (w.env wt, s) := by
  obtain ⟨s, h1, h2⟩ := rawOf_typed h
  obtain ⟨wt, h3, h4⟩ := weightsOf_typed h
  exact ⟨wt, s, h4, h2, by simp [readyOpt, h1, h3, member, Except.bind]⟩

/-! ## The axis arrays -/

theorem qsc_sizes (ofInt : Int → F) (zero : F) (t : Table F) (hu : (t.map (·.1)).Nodup)
    (d q : QscIn F) (h : qscInput ofInt zero t d = .ok q) :
    Spec.OptLoop.AllSize q.R0c.length (configOf q) := by
  obtain ⟨-, -, -, -, -, -, -, -, -, -, -, -, -, -, -, -, -, R0c, R0s, Z0c, Z0s, -, -, -, -, h1, h2,
    h3, h4⟩ := (qscInput_ok_iff ofInt zero t d q hu).1 h
  exact ⟨rfl, h2.1.trans h1.1.symm, h3.1.trans h1.1.symm, h4.1.trans h1.1.symm⟩

theorem opt_sizes (ofInt : Int → F) (zero : F) (f : File F) (hf : WellFormed f) (d r : OptObj F)
    (h : optInput ofInt zero f d = .ok r) :
    Spec.OptLoop.AllSize r.q.R0c.length (configOf r.q) ∧ 0 < r.q.R0c.length := by
  obtain ⟨-, hne, ⟨t, ht, hq⟩, -⟩ := (optInput_iff ofInt zero f hf d r).1 h
  exact ⟨qsc_sizes ofInt zero t (hf.2 _ ht) _ _ hq, List.length_pos_iff.2 hne⟩

/-! ## Running -/

theorem nat?_ok {what : String} {i : Int} (h : 0 ≤ i) : nat? what i = .ok i.toNat := by
  simp [nat?, Int.not_lt.2 h]

theorem nats_ok {what : String} {l : List Int} (h : ∀ n ∈ l, 0 ≤ n) :
    l.mapM (nat? what) = .ok (l.map Int.toNat) := by
  induction l with
  | nil => rfl
  | cons a l ih =>
    rw [List.mapM_cons, nat?_ok (h a (by simp)), ih fun n hn => h n (by simp [hn])]
    rfl

/-- With non-negative sizes the run is that of `Model/OptLoop`. -/
theorem runOpt_eq [Zero F] (e : OptLoop.Env F P) (s : Raw) (hs : Natural s) (order : String)
    (q : Config F) (nphi : Int) (hn : 0 ≤ nphi) :
    runOpt e s order q nphi =
      liftRun (OptLoop.optimize e
        ⟨s.fl, s.refine.toNat, s.maxIter.toNat, s.nphis.map Int.toNat⟩ order q nphi.toNat) := by
  unfold runOpt
  rw [nat?_ok hn, nat?_ok hs.maxIter, nats_ok hs.nphis]
  simp only [Except.bind, hs.refine.1, if_true]

theorem fine_of_safe {α : Type} {Q : α → Prop} {x : Except OptState.Err α}
    (h : Spec.OptLoop.Safe Q x) : Fine Q (liftRun x) := by
  cases x with
  | ok a => exact h
  | error e => obtain ⟨m, rfl⟩ := h; exact ⟨m, rfl⟩

theorem Fine.mono {α : Type} {Q R : α → Prop} {x : Except Pipeline.Err α} (hx : Fine Q x)
    (h : ∀ a, Q a → R a) : Fine R x := by
  cases x with
  | ok a => exact h a hx
  | error e => exact hx

theorem Fine.bind {α β : Type} {Q : α → Prop} {R : β → Prop} {x : Except Pipeline.Err α}
    {g : α → Except Pipeline.Err β} (hx : Fine Q x) (hg : ∀ a, Q a → Fine R (g a)) :
    Fine R (x.bind g) := by
  cases x with
  | ok a => exact hg a hx
  | error e => exact hx

end Qsc.Pipeline
