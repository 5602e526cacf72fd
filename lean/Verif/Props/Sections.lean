import Verif.Lemmas.SectionsFile
import Std.Data.String.ToNat

/-!
# Properties C69-C72: reading whole input files
-/

namespace Qsc.Sections

open Qsc.Spec.Sections Qsc.Toml Qsc.Spec.Toml

variable {F : Type}

/-! ## C69: the input of a random scan -/

/-- `Scan::input` succeeds exactly if the file has sections `[qsc]` and `[scan]`, the first is
accepted (C04), every key of the second is documented and has its type; then every member is what
the file says, or keeps its value if the file says nothing, and the eight arrays that bound the axis
shapes are padded with zeros to the longest of them. -/
theorem scanInput_iff (ofInt : Int → F) (zero : F) (f : File F) (hf : WellFormed f)
    (d r : ScanObj F) :
    scanInput ofInt zero f d = .ok r ↔
      (∃ t, ("qsc", t) ∈ f ∧ qscInput ofInt zero t d.q = .ok r.q) ∧
      ∃ t mid, ("scan", t) ∈ f ∧ Read ofInt scanDoc t d.mem mid ∧ Padded zero mid r.mem := by
  unfold scanInput
  simp only [ebind_iff, inputQsc_iff ofInt zero hf.1, findSection_iff hf.1, lift_iff]
  constructor
  · rintro ⟨q, hq, t, ht, s, hs, u, hu, n, hn, o, ho, h⟩
    obtain rfl := Except.ok.inj h
    refine ⟨hq, t, s.1, ht, ?_, ?_⟩
    · exact ((read_iff ofInt t (hf.2 _ ht) _ _ scan_agree _ s).1 ⟨hs, hu⟩).2
    · exact (pad_iff zero _ _).1 (ebind_iff.2 ⟨n, hn, ho⟩)
  · rintro ⟨hq, t, mid, ht, hr, hp⟩
    obtain ⟨hs, hu⟩ := (read_iff ofInt t (hf.2 _ ht) _ _ scan_agree _
      (mid, scanCalls.map Call.key)).2 ⟨rfl, hr⟩
    obtain ⟨n, hn, ho⟩ := ebind_iff.1 ((pad_iff zero _ _).2 hp)
    exact ⟨r.q, hq, t, ht, _, hs, (), hu, n, hn, r.mem, ho, rfl⟩

/-- After reading, all members of a scan are initialised with values of their types, and the eight
arrays have one common length. -/
theorem scanInput_ready (ofInt : Int → F) (zero : F) (f : File F) (hf : WellFormed f)
    (d r : ScanObj F) (ht : Typed scanDoc d.mem) (h : scanInput ofInt zero f d = .ok r) :
    Typed scanDoc r.mem ∧ ∃ n, ∀ m ∈ boundArrays, Len r.mem m n := by
  obtain ⟨-, t, mid, -, ⟨-, h2, h3⟩, ⟨n, -, h4⟩, h5⟩ := (scanInput_iff ofInt zero f hf d r).1 h
  have hm := typed_of_read ht h2
  constructor
  · intro κ k hk
    by_cases hb : k ∈ boundArrays
    · obtain ⟨l, w, e1, e2, -⟩ := h4 k hb
      obtain ⟨v, e3, hv⟩ := hm κ k hk
      rw [e1] at e3
      cases e3
      refine ⟨_, e2, ?_⟩
      cases κ <;> obtain ⟨y, hy⟩ := hv <;> cases hy
      exact ⟨w, rfl⟩
    · rw [h5 k hb]; exact hm κ k hk
  · refine ⟨n, fun m hb => ?_⟩
    obtain ⟨l, w, -, e2, hp⟩ := h4 m hb
    exact Or.inl ⟨w, e2, hp.1⟩

/-! ## C70: the input of an optimization -/

theorem varyDefaults_iff (n : Nat) (o r : Obj F) :
    varyDefaults n o = .ok r ↔ 0 < n ∧ ∀ m, r m = OptInitial n o m := by
  have hset : ∀ k : Nat, 0 < k → (List.replicate k true).set 0 false
      = false :: List.replicate (k - 1) true := by
    intro k hk
    cases k with
    | zero => omega
    | succ k => simp [List.replicate_succ]
  unfold varyDefaults
  simp only [ebind_iff, varyDefault, if_true, Bool.false_eq_true, if_false, Except.ok.injEq]
  by_cases hn : 0 < n
  · simp only [hn, if_true, Except.ok.injEq, true_and]
    rw [hset n hn]
    have key : ∀ m, (set (set (set (set o "vary_R0c" (.bools (false :: List.replicate (n - 1) true)))
        "vary_R0s" (.bools (List.replicate n false))) "vary_Z0c" (.bools (List.replicate n false)))
        "vary_Z0s" (.bools (false :: List.replicate (n - 1) true))) m = OptInitial n o m := by
      intro m
      unfold set OptInitial
      by_cases h1 : m = "vary_R0c"
      · subst h1; simp
      by_cases h2 : m = "vary_R0s"
      · subst h2; simp
      by_cases h3 : m = "vary_Z0c"
      · subst h3; simp
      by_cases h4 : m = "vary_Z0s"
      · subst h4; simp
      simp [h1, h2, h3, h4]
    constructor
    · rintro ⟨_, rfl, _, rfl, _, rfl, _, rfl, rfl⟩
      exact key
    · intro h
      refine ⟨_, rfl, _, rfl, _, rfl, _, rfl, ?_⟩
      funext m
      rw [h m]; exact key m
  · simp [hn]

theorem checkNphi_iff (o : Obj F) :
    checkNphi o = .ok () ↔ ∃ l k, o "nphi" = some (.ints l) ∧ o "fourier_refine" = some (.int k) ∧
      (l = [] ∨ (l.length : Int) = (k + 1) % 2 ^ 64) := by
  unfold checkNphi
  split
  · rename_i l k h1 h2
    simp only [h1, h2, Option.some.injEq, Val.ints.injEq, Val.int.injEq]
    constructor
    · intro h
      refine ⟨l, k, rfl, rfl, ?_⟩
      by_cases hl : l = []
      · exact Or.inl hl
      · right
        refine Classical.byContradiction fun hc => ?_
        rw [if_pos ⟨List.length_pos_iff.2 hl, hc⟩] at h
        cases h
    · rintro ⟨_, _, rfl, rfl, h⟩
      rw [if_neg]
      rintro ⟨h1, h2⟩
      rcases h with rfl | h
      · simp at h1
      · exact h2 h
  · rename_i hne
    simp only [reduceCtorEq, false_iff]
    rintro ⟨l, k, h1, h2, -⟩
    exact hne l k h1 h2

theorem chooseAlgorithm_iff (s : String) (o r : Obj F) :
    chooseAlgorithm s o = .ok r ↔
      ((s = "" ∧ r "algorithm" = o "algorithm") ∨
        ∃ e, (s, e) ∈ algorithms ∧ r "algorithm" = some (.enum e)) ∧
      ∀ m, m ≠ "algorithm" → r m = o m := by
  have hs : ∀ e, (set o "algorithm" (.enum e) = r ↔
      r "algorithm" = some (.enum e) ∧ ∀ m, m ≠ "algorithm" → r m = o m) := by
    intro e
    constructor
    · rintro rfl
      exact ⟨by simp [set], fun m hm => by simp [set, hm]⟩
    · rintro ⟨h1, h2⟩
      funext m
      by_cases hm : m = "algorithm"
      · subst hm; simp [set, h1]
      · simp [set, hm, h2 m hm]
  have ho : o = r ↔ r "algorithm" = o "algorithm" ∧ ∀ m, m ≠ "algorithm" → r m = o m := by
    constructor
    · rintro rfl; exact ⟨rfl, fun _ _ => rfl⟩
    · rintro ⟨h1, h2⟩
      funext m
      by_cases hm : m = "algorithm"
      · subst hm; exact h1.symm
      · exact (h2 m hm).symm
  unfold chooseAlgorithm
  by_cases h1 : s = "lm"
  · subst h1; simp [algorithms, hs]
  by_cases h2 : s = "dogleg"
  · subst h2; simp [algorithms, hs]
  by_cases h3 : s = "ddogleg"
  · subst h3; simp [algorithms, hs]
  by_cases h4 : s = "subspace2d"
  · subst h4; simp [algorithms, hs]
  by_cases h5 : s = ""
  · subst h5; simp [algorithms, ho]
  simp [algorithms, h1, h2, h3, h4, h5]

theorem chooseDiff_iff (s : String) (o r : Obj F) :
    chooseDiff s o = .ok r ↔
      ((s = "" ∧ r "diff_method" = o "diff_method") ∨
        ∃ e, (s, e) ∈ diffMethods ∧ r "diff_method" = some (.enum e)) ∧
      ∀ m, m ≠ "diff_method" → r m = o m := by
  have hs : ∀ e, (set o "diff_method" (.enum e) = r ↔
      r "diff_method" = some (.enum e) ∧ ∀ m, m ≠ "diff_method" → r m = o m) := by
    intro e
    constructor
    · rintro rfl
      exact ⟨by simp [set], fun m hm => by simp [set, hm]⟩
    · rintro ⟨h1, h2⟩
      funext m
      by_cases hm : m = "diff_method"
      · subst hm; simp [set, h1]
      · simp [set, hm, h2 m hm]
  have ho : o = r ↔ r "diff_method" = o "diff_method" ∧ ∀ m, m ≠ "diff_method" → r m = o m := by
    constructor
    · rintro rfl; exact ⟨rfl, fun _ _ => rfl⟩
    · rintro ⟨h1, h2⟩
      funext m
      by_cases hm : m = "diff_method"
      · subst hm; exact h1.symm
      · exact (h2 m hm).symm
  unfold chooseDiff
  by_cases h1 : s = "forward"
  · subst h1; simp [diffMethods, hs]
  by_cases h2 : s = "centered"
  · subst h2; simp [diffMethods, hs]
  by_cases h5 : s = ""
  · subst h5; simp [diffMethods, ho]
  simp [diffMethods, h1, h2, h5]

/-- A string key that may be absent, as one of a list of names. -/
theorem choice_iff (names : List (String × String)) (hne : ∀ e, ("", e) ∉ names) (t : Table F)
    (k : Key) (s : String) (before after : Option (Val F)) (hr : ReadsC asStr t k "" s) :
    ((s = "" ∧ after = before) ∨ ∃ e, (s, e) ∈ names ∧ after = some (.enum e)) ↔
      Choice names t k before after := by
  obtain ⟨h1, h2⟩ := hr
  unfold Choice
  by_cases h : ∃ x, (k, x) ∈ t
  · obtain ⟨x, hx⟩ := h
    have hs : ∀ y, (k, y) ∈ t → y = .str s := fun y hy => (asStr_is y s).1 (h2 y hy)
    constructor
    · intro hc
      refine ⟨fun ha => absurd hx (ha x), fun y hy => ?_⟩
      rcases hc with ⟨rfl, e⟩ | ⟨e, he, e'⟩
      · exact Or.inl ⟨hs y hy, e⟩
      · exact Or.inr ⟨s, e, he, hs y hy, e'⟩
    · rintro ⟨-, h3⟩
      have hxs := hs x hx
      rcases h3 x hx with ⟨e1, e2⟩ | ⟨s', e, he, e1, e2⟩
      · rw [hxs] at e1; cases e1; exact Or.inl ⟨rfl, e2⟩
      · rw [hxs] at e1; cases e1; exact Or.inr ⟨e, he, e2⟩
  · have hn : ∀ x, (k, x) ∉ t := fun x hx => h ⟨x, hx⟩
    obtain rfl := h1 hn
    constructor
    · rintro (⟨-, e⟩ | ⟨e, he, -⟩)
      · exact ⟨fun _ => e, fun x hx => absurd hx (hn x)⟩
      · exact absurd he (hne e)
    · rintro ⟨h3, -⟩
      exact Or.inl ⟨rfl, h3 hn⟩

/-- The result of `Opt::input`, stated without the code. -/
structure OptRead (ofInt : Int → F) (t : Table F) (n : Nat) (d r : Obj F) : Prop where
  /-- no unknown key -/
  known : ∀ k x, (k, x) ∈ t → (∃ κ, optDoc.Has κ k) ∨ k = "algorithm" ∨ k = "diff_method"
  member : ∀ κ k, optDoc.Has κ k → Member ofInt κ t k (OptInitial n d k) (r k)
  algorithm : Choice algorithms t "algorithm" (d "algorithm") (r "algorithm")
  diff : Choice diffMethods t "diff_method" (d "diff_method") (r "diff_method")
  other : ∀ m, (∀ κ, ¬ optDoc.Has κ m) → m ≠ "algorithm" → m ≠ "diff_method" → r m = d m
  /-- one resolution for each refinement step, if any is given -/
  nphi : ∃ l k, r "nphi" = some (.ints l) ∧ r "fourier_refine" = some (.int k) ∧
    (l = [] ∨ (l.length : Int) = (k + 1) % 2 ^ 64)

theorem initial_other (n : Nat) (o : Obj F) (m : String) (h : ∀ κ, ¬ optDoc.Has κ m) :
    OptInitial n o m = o m := by
  have hv : ∀ k ∈ ["vary_R0c", "vary_R0s", "vary_Z0c", "vary_Z0s"], optDoc.Has .bools k :=
    fun k hk => ⟨["vary_R0c", "vary_R0s", "vary_Z0c", "vary_Z0s"], by simp [optDoc], hk⟩
  have h1 : m ≠ "vary_R0c" := fun e => h .bools (e ▸ hv _ (by simp))
  have h2 : m ≠ "vary_R0s" := fun e => h .bools (e ▸ hv _ (by simp))
  have h3 : m ≠ "vary_Z0c" := fun e => h .bools (e ▸ hv _ (by simp))
  have h4 : m ≠ "vary_Z0s" := fun e => h .bools (e ▸ hv _ (by simp))
  simp [OptInitial, h1, h2, h3, h4]

theorem opt_not_choice (κ : Kind) (k : Key) (h : optDoc.Has κ k) :
    k ≠ "algorithm" ∧ k ≠ "diff_method" := by
  obtain ⟨ks, h1, h2⟩ := h
  simp only [optDoc, List.mem_cons, List.not_mem_nil, or_false, Prod.mk.injEq] at h1
  rcases h1 with ⟨-, rfl⟩ | ⟨-, rfl⟩ | ⟨-, rfl⟩ | ⟨-, rfl⟩ | ⟨-, rfl⟩ <;>
    constructor <;> rintro rfl <;> simp at h2

/-- `Opt::input` succeeds exactly if the file has a section `[qsc]` that is accepted and gives at
least one axis amplitude, and a section for this optimization in which every key is documented and
has its type, the names of the algorithm and the difference method are known, and there is one
resolution for each refinement step (or none).  The members are then what the file says, or else the
defaults; the defaults of the four flag arrays have the length of the axis arrays. -/
theorem optInput_iff (ofInt : Int → F) (zero : F) (f : File F) (hf : WellFormed f)
    (d r : OptObj F) :
    optInput ofInt zero f d = .ok r ↔
      r.group = d.group ∧ r.q.R0c ≠ [] ∧
      (∃ t, ("qsc", t) ∈ f ∧ qscInput ofInt zero t d.q = .ok r.q) ∧
      ∃ t, (d.group, t) ∈ f ∧ OptRead ofInt t r.q.R0c.length d.mem r.mem := by
  obtain ⟨hc, hn, hh⟩ := opt_agree
  have hmem : ∀ m, m ∈ optCalls.map Call.key ↔ ∃ κ, optDoc.Has κ m := by
    intro m
    rw [List.mem_map]
    constructor
    · rintro ⟨c, h1, h2⟩
      exact ⟨c.kind, (hh _ _).2 ⟨c, h1, rfl, h2⟩⟩
    · rintro ⟨κ, h⟩
      obtain ⟨c, h1, _, h2⟩ := (hh _ _).1 h
      exact ⟨c, h1, h2⟩
  have hNphi : optDoc.Has .ints "nphi" := ⟨["nphi"], by simp [optDoc], by simp⟩
  have hRef : optDoc.Has .int "fourier_refine" :=
    ⟨["fourier_refine", "max_iter", "verbose"], by simp [optDoc], by simp⟩
  have hAlg : ∀ κ, ¬ optDoc.Has κ "algorithm" := fun κ h => (opt_not_choice κ _ h).1 rfl
  have hDif : ∀ κ, ¬ optDoc.Has κ "diff_method" := fun κ h => (opt_not_choice κ _ h).2 rfl
  unfold optInput
  simp only [ebind_iff, inputQsc_iff ofInt zero hf.1, findSection_iff hf.1, lift_iff,
    varyDefaults_iff]
  constructor
  · rintro ⟨q, hq, o0, ⟨hpos, ho0⟩, t, ht, s, hs, _, hk, a, ha, o1, ho1, m, hm, o2, ho2, u, hu, h⟩
    obtain rfl := Except.ok.inj h
    have hut := hf.2 _ ht
    obtain ⟨e1, r1, u1⟩ := (readCalls_ok_iff ofInt t hut _ hc hn _ _ s).1 hs
    obtain ⟨ra, ea⟩ := (tomlRead_ok_iff asStr t hut _ _ _ a).1 ha
    obtain ⟨rm, em⟩ := (tomlRead_ok_iff asStr t hut _ _ _ m).1 hm
    obtain ⟨c1, v1⟩ := (chooseAlgorithm_iff _ _ _).1 ho1
    obtain ⟨c2, v2⟩ := (chooseDiff_iff _ _ _).1 ho2
    have hkeep : ∀ k, k ≠ "algorithm" → k ≠ "diff_method" → o2 k = s.1 k := by
      intro k h1 h2; rw [v2 k h2, v1 k h1]
    have hkeepD : ∀ κ k, optDoc.Has κ k → o2 k = s.1 k := fun κ k h =>
      hkeep k (opt_not_choice κ k h).1 (opt_not_choice κ k h).2
    have hsA : s.1 "algorithm" = d.mem "algorithm" := by
      rw [u1 _ (by rw [hmem]; rintro ⟨κ, h⟩; exact hAlg κ h), ho0, initial_other _ _ _ hAlg]
    have hsD : s.1 "diff_method" = d.mem "diff_method" := by
      rw [u1 _ (by rw [hmem]; rintro ⟨κ, h⟩; exact hDif κ h), ho0, initial_other _ _ _ hDif]
    refine ⟨rfl, List.length_pos_iff.1 hpos, hq, t, ht, ?_, ?_, ?_, ?_, ?_, ?_⟩
    · intro k x hx
      have := (tomlUnused_ok_iff _ _).1 hu k x hx
      rw [em, ea, e1] at this
      simp only [List.nil_append, List.append_assoc, List.mem_append, List.cons_append,
        List.mem_cons, List.not_mem_nil, or_false] at this
      rcases this with h | h | h
      · exact Or.inl ((hmem k).1 h)
      · exact Or.inr (Or.inl h)
      · exact Or.inr (Or.inr h)
    · intro κ k hkk
      obtain ⟨c, hcm, rfl, rfl⟩ := (hh _ _).1 hkk
      have := r1 c hcm
      rw [← hkeepD _ _ hkk, ho0] at this
      exact this
    · have := (choice_iff algorithms (by simp [algorithms]) t _ _ _ _ ra).1 c1
      rwa [← v2 _ (by simp), hsA] at this
    · have := (choice_iff diffMethods (by simp [diffMethods]) t _ _ _ _ rm).1 c2
      rwa [v1 _ (by simp), hsD] at this
    · intro k h1 h2 h3
      refine (hkeep k h2 h3).trans ?_
      rw [u1 k (by rw [hmem]; rintro ⟨κ, h⟩; exact h1 κ h), ho0,
        initial_other _ _ _ h1]
    · obtain ⟨l, k, h1, h2, h3⟩ := (checkNphi_iff _).1 hk
      exact ⟨l, k, (hkeepD _ _ hNphi).trans h1, (hkeepD _ _ hRef).trans h2, h3⟩
  · rintro ⟨hg, hne, hq, t, ht, H⟩
    have hut := hf.2 _ ht
    let o0 : Obj F := OptInitial r.q.R0c.length d.mem
    let s1 : Obj F := fun m => if m ∈ optCalls.map Call.key then r.mem m else o0 m
    have hs1 : ∀ κ k, optDoc.Has κ k → s1 k = r.mem k := fun κ k h => by
      simp only [s1]; rw [if_pos ((hmem k).2 ⟨κ, h⟩)]
    have hs0 : ∀ k, (∀ κ, ¬ optDoc.Has κ k) → s1 k = d.mem k := fun k h => by
      simp only [s1]
      rw [if_neg (by rw [hmem]; rintro ⟨κ, h'⟩; exact h κ h')]
      exact initial_other _ _ _ h
    -- the two strings
    have hstr : ∀ names k before after, Choice names t k before after →
        ∃ s, ReadsC asStr t k "" s := by
      intro names k before after hch
      by_cases h : ∃ x, (k, x) ∈ t
      · obtain ⟨x, hx⟩ := h
        have hx' : ∀ y, (k, y) ∈ t → y = x := by
          intro y hy
          have h1 := (find?_some_iff t hut k y).2 hy
          rw [(find?_some_iff t hut k x).2 hx] at h1
          exact (Option.some.inj h1).symm
        have : ∃ s, x = .str s := by
          rcases hch.2 x hx with ⟨e, -⟩ | ⟨s, e, -, he, -⟩
          · exact ⟨_, e⟩
          · exact ⟨s, he⟩
        obtain ⟨s, rfl⟩ := this
        exact ⟨s, fun ha => absurd hx (ha _), fun y hy => by rw [hx' y hy]; rfl⟩
      · exact ⟨"", fun _ => rfl, fun x hx => absurd ⟨x, hx⟩ h⟩
    obtain ⟨sa, ra⟩ := hstr _ _ _ _ H.algorithm
    obtain ⟨sd, rd⟩ := hstr _ _ _ _ H.diff
    let o1 : Obj F := fun m => if m = "algorithm" then r.mem m else s1 m
    refine ⟨r.q, hq, o0, ⟨List.length_pos_iff.2 hne, fun _ => rfl⟩, t, ht,
      (s1, optCalls.map Call.key), ?_, (), ?_, (sa, optCalls.map Call.key ++ ["algorithm"]), ?_,
      o1, ?_, (sd, optCalls.map Call.key ++ ["algorithm"] ++ ["diff_method"]), ?_, r.mem, ?_,
      (), ?_, ?_⟩
    · refine (readCalls_ok_iff ofInt t hut _ hc hn _ _ _).2 ⟨by simp, ?_, ?_⟩
      · intro c hcm
        have hk := (hh _ _).2 ⟨c, hcm, rfl, rfl⟩
        have := H.member _ _ hk
        show Member ofInt c.kind t c.key (o0 c.key) (s1 c.key)
        rw [hs1 _ _ hk]
        exact this
      · intro m hm
        show s1 m = o0 m
        simp only [s1]; rw [if_neg hm]
    · obtain ⟨l, k, h1, h2, h3⟩ := H.nphi
      exact (checkNphi_iff _).2 ⟨l, k, (hs1 _ _ hNphi).trans h1, (hs1 _ _ hRef).trans h2, h3⟩
    · exact (tomlRead_ok_iff asStr t hut _ _ _ _).2 ⟨ra, rfl⟩
    · refine (chooseAlgorithm_iff _ _ _).2 ⟨?_, ?_⟩
      · refine (choice_iff algorithms (by simp [algorithms]) t "algorithm" sa _ _ ra).2 ?_
        show Choice algorithms t "algorithm" (s1 "algorithm") (o1 "algorithm")
        rw [hs0 _ hAlg]
        simpa [o1] using H.algorithm
      · intro m hm
        simp [o1, hm]
    · exact (tomlRead_ok_iff asStr t hut _ _ _ _).2 ⟨rd, rfl⟩
    · refine (chooseDiff_iff _ _ _).2 ⟨?_, ?_⟩
      · refine (choice_iff diffMethods (by simp [diffMethods]) t "diff_method" sd _ _ rd).2 ?_
        have : o1 "diff_method" = d.mem "diff_method" := by
          simp only [o1, if_neg (show "diff_method" ≠ "algorithm" by simp)]
          exact hs0 _ hDif
        rw [this]
        exact H.diff
      · intro m hm
        by_cases hA : m = "algorithm"
        · simp [o1, hA]
        · simp only [o1, hA, if_false]
          by_cases hD : ∃ κ, optDoc.Has κ m
          · obtain ⟨κ, hD⟩ := hD
            exact (hs1 κ m hD).symm
          · rw [hs0 m fun κ h => hD ⟨κ, h⟩]
            exact H.other m (fun κ h => hD ⟨κ, h⟩) hA hm
    · refine (tomlUnused_ok_iff _ _).2 fun k x hx => ?_
      simp only [List.append_assoc, List.mem_append, List.cons_append, List.nil_append,
        List.mem_cons, List.not_mem_nil, or_false]
      rcases H.known k x hx with h | h | h
      · exact Or.inl ((hmem k).2 h)
      · exact Or.inr (Or.inl h)
      · exact Or.inr (Or.inr h)
    · cases r; simp only at hg; subst hg; rfl

/-- The resolutions: with `int` values and arrays of realistic size, either none is given or one for
each of the `fourier_refine + 1` steps. -/
theorem optInput_nphi (ofInt : Int → F) (zero : F) (f : File F) (hf : WellFormed f)
    (d r : OptObj F) (h : optInput ofInt zero f d = .ok r) (l : List Int) (k : Int)
    (hl : r.mem "nphi" = some (.ints l)) (hk : r.mem "fourier_refine" = some (.int k))
    (hs : l.length < 2 ^ 63) (hlo : -2 ^ 31 ≤ k) (hhi : k < 2 ^ 31) :
    l = [] ∨ (l.length : Int) = k + 1 := by
  obtain ⟨-, -, -, t, -, H⟩ := (optInput_iff ofInt zero f hf d r).1 h
  obtain ⟨l', k', h1, h2, h3⟩ := H.nphi
  rw [hl] at h1
  rw [hk] at h2
  cases h1
  cases h2
  rcases h3 with h3 | h3
  · exact Or.inl h3
  · right; omega

/-- The flag arrays after reading: as in the file, or of the length of the axis arrays. -/
theorem optInput_flags (ofInt : Int → F) (zero : F) (f : File F) (hf : WellFormed f)
    (d r : OptObj F) (h : optInput ofInt zero f d = .ok r) (t : Table F) (ht : (d.group, t) ∈ f)
    (k : Key) (hk : k ∈ ["vary_R0c", "vary_R0s", "vary_Z0c", "vary_Z0s"]) :
    ∃ l, r.mem k = some (.bools l) ∧ ((∀ x, (k, x) ∉ t) → l.length = r.q.R0c.length) ∧
      ∀ x, (k, x) ∈ t → x = .arr (l.map .bool) := by
  obtain ⟨-, hne, -, t', ht', H⟩ := (optInput_iff ofInt zero f hf d r).1 h
  obtain rfl : t' = t := by
    have h1 := (findSection_iff hf.1 _ _).2 ht'
    rw [(findSection_iff hf.1 _ _).2 ht] at h1
    exact (Except.ok.inj h1).symm
  have hd : optDoc.Has .bools k := ⟨_, by simp [optDoc], hk⟩
  obtain ⟨h1, h2⟩ := H.member _ _ hd
  have hpos := List.length_pos_iff.2 hne
  by_cases hx : ∃ x, (k, x) ∈ t'
  · obtain ⟨x, hx⟩ := hx
    obtain ⟨v, ⟨l, e1, rfl⟩, e2⟩ := h2 x hx
    refine ⟨l, e2, fun h => absurd hx (h x), fun y hy => ?_⟩
    obtain ⟨v, ⟨l', e1', rfl⟩, e2'⟩ := h2 y hy
    rw [e2] at e2'
    cases e2'
    exact e1'
  · have hn : ∀ x, (k, x) ∉ t' := fun x h => hx ⟨x, h⟩
    have e := h1 hn
    simp only [List.mem_cons, List.not_mem_nil, or_false] at hk
    rcases hk with rfl | rfl | rfl | rfl
    · exact ⟨_, e, fun _ => by simp; omega, fun x h => absurd h (hn x)⟩
    · exact ⟨_, e, fun _ => by simp, fun x h => absurd h (hn x)⟩
    · exact ⟨_, e, fun _ => by simp, fun x h => absurd h (hn x)⟩
    · exact ⟨_, e, fun _ => by simp; omega, fun x h => absurd h (hn x)⟩

/-- Without any axis amplitude the code writes to the first element of an empty array. -/
theorem optInput_no_axis (ofInt : Int → F) (zero : F) (f : File F) (hf : WellFormed f)
    (d : OptObj F) (t : Table F) (ht : ("qsc", t) ∈ f) (q : QscIn F)
    (hq : qscInput ofInt zero t d.q = .ok q) (h0 : q.R0c = []) :
    optInput ofInt zero f d = .error (.undefined "vary array") := by
  unfold optInput
  rw [(inputQsc_iff ofInt zero hf.1 d.q q).2 ⟨t, ht, hq⟩]
  simp [Except.bind, varyDefaults, varyDefault, h0]

/-! ## C71: the input of a multi-stage optimization -/

theorem readStages_iff (ofInt : Int → F) (zero : F) (f : File F) (new : OptObj F) (j n : Nat)
    (os : List (OptObj F)) :
    readStages ofInt zero f new j n = .ok os ↔ os.length = n ∧ ∀ i o, os[i]? = some o →
      optInput ofInt zero f ⟨new.q, groupName (j + i), set new.mem "make_names" (.bool false)⟩ =
        .ok o := by
  induction n generalizing j os with
  | zero =>
    simp only [readStages, Except.ok.injEq]
    constructor
    · rintro rfl; simp
    · rintro ⟨h, -⟩; exact (List.length_eq_zero_iff.1 h).symm
  | succ n ih =>
    simp only [readStages, ebind_iff, ih, Except.ok.injEq]
    constructor
    · rintro ⟨o, h1, os', ⟨h2, h3⟩, rfl⟩
      refine ⟨by simp [h2], fun i o' hi => ?_⟩
      cases i with
      | zero => simp only [List.getElem?_cons_zero, Option.some.injEq] at hi; subst hi; exact h1
      | succ i =>
        have := h3 i o' (by simpa using hi)
        rwa [show j + 1 + i = j + (i + 1) by omega] at this
    · rintro ⟨h1, h2⟩
      cases os with
      | nil => simp at h1
      | cons o os =>
        refine ⟨o, h2 0 o (by simp), os, ⟨by simpa using h1, fun i o' hi => ?_⟩, rfl⟩
        have := h2 (i + 1) o' (by simpa using hi)
        rwa [show j + (i + 1) = j + 1 + i by omega] at this

/-- `MultiOpt::input` succeeds exactly if `[multiopt]` has an integer `nopts` of at least 1 and
otherwise at most `verbose`, and for each of the stages `0 .. nopts - 1` the file gives an acceptable
optimization (C70) with the section `[opt<j>]`; stage `j` is what that section says, without a file
of names unless the section asks for it. -/
theorem multioptInput_iff (ofInt : Int → F) (zero : F) (f : File F) (hf : WellFormed f)
    (new : OptObj F) (d r : MultiOptObj F) :
    multioptInput ofInt zero f new d = .ok r ↔
      ∃ t n, ("multiopt", t) ∈ f ∧ ("nopts", .int n) ∈ t ∧ 1 ≤ n ∧
        Read ofInt multioptDoc t (fun m => if m = "nopts" then none else d.mem m) r.mem ∧
        (r.opts.length : Int) = n ∧
        ∀ (j : Nat) o, r.opts[j]? = some o →
          optInput ofInt zero f
            ⟨new.q, "opt" ++ toString j,
              fun m => if m = "make_names" then some (.bool false) else new.mem m⟩ = .ok o := by
  have hN : multioptDoc.Has .int "nopts" := ⟨_, List.mem_cons_self .., by simp⟩
  unfold multioptInput
  simp only [ebind_iff, findSection_iff hf.1, lift_iff]
  constructor
  · rintro ⟨t, ht, s, hs, u, hu, h⟩
    have hut := hf.2 _ ht
    obtain ⟨-, hr⟩ := (read_iff ofInt t hut _ _ multiopt_agree _ s).1 ⟨hs, hu⟩
    split at h
    · rename_i n hn
      split at h
      · cases h
      · rename_i hge
        obtain ⟨os, hos, e⟩ := ebind_iff.1 h
        obtain rfl := Except.ok.inj e
        obtain ⟨h1, h2⟩ := (readStages_iff ..).1 hos
        have hpres : ∃ x, ("nopts", x) ∈ t := by
          refine Classical.byContradiction fun hc => ?_
          have := (hr.2.1 _ _ hN).1 fun x hx => hc ⟨x, hx⟩
          simp [hn] at this
        obtain ⟨x, hx⟩ := hpres
        obtain ⟨v, ⟨i, e1, rfl⟩, e2⟩ := (hr.2.1 _ _ hN).2 x hx
        rw [hn] at e2
        cases e2
        subst e1
        refine ⟨t, n, ht, hx, by omega, hr, ?_, fun j o hj => ?_⟩
        · show (os.length : Int) = n
          omega
        · have := h2 j o hj
          rwa [Nat.zero_add] at this
    · cases h
  · rintro ⟨t, n, ht, hx, hge, hr, hlen, hst⟩
    have hut := hf.2 _ ht
    obtain ⟨hs, hu⟩ := (read_iff ofInt t hut _ _ multiopt_agree _
      (r.mem, multioptCalls.map Call.key)).2 ⟨rfl, hr⟩
    refine ⟨t, ht, _, hs, (), hu, ?_⟩
    obtain ⟨v, ⟨i, e1, rfl⟩, e2⟩ := (hr.2.1 _ _ hN).2 _ hx
    cases e1
    simp only [e2]
    rw [if_neg (by omega), ebind_iff]
    refine ⟨r.opts, ?_, rfl⟩
    refine (readStages_iff ..).2 ⟨by omega, fun j o hj => ?_⟩
    rw [Nat.zero_add]
    exact hst j o hj

/-- The number of stages has no default: if the section says nothing about it, an uninitialised
variable is used. -/
theorem multioptInput_no_nopts (ofInt : Int → F) (zero : F) (f : File F) (hf : WellFormed f)
    (new : OptObj F) (d : MultiOptObj F) (t : Table F) (ht : ("multiopt", t) ∈ f)
    (hk : ∀ k x, (k, x) ∈ t → k = "verbose" ∧ ∃ i, x = .int i) :
    multioptInput ofInt zero f new d = .error (.undefined "nopts") := by
  have hut := hf.2 _ ht
  let o0 : Obj F := fun m => if m = "nopts" then none else d.mem m
  have hex : ∃ o1 : Obj F, o1 "nopts" = none ∧ Read ofInt multioptDoc t o0 o1 := by
    have hdoc : ∀ κ k, multioptDoc.Has κ k → κ = .int ∧ (k = "verbose" ∨ k = "nopts") := by
      rintro κ k ⟨ks, h1, h2⟩
      simp only [multioptDoc, List.mem_cons, List.not_mem_nil, or_false, Prod.mk.injEq] at h1
      obtain ⟨rfl, rfl⟩ := h1
      exact ⟨rfl, by simpa using h2⟩
    have hV : multioptDoc.Has .int "verbose" := ⟨_, List.mem_cons_self .., by simp⟩
    have hno : ∀ x, ("nopts", x) ∉ t := fun x hx => by simpa using (hk _ _ hx).1
    have hknown : ∀ k x, (k, x) ∈ t → ∃ κ, multioptDoc.Has κ k := fun k x hx =>
      ⟨.int, (hk k x hx).1 ▸ hV⟩
    by_cases hx : ∃ x, ("verbose", x) ∈ t
    · obtain ⟨x, hx⟩ := hx
      obtain ⟨-, i, rfl⟩ := hk _ _ hx
      refine ⟨set o0 "verbose" (.int i), by simp [set, o0], hknown, ?_, ?_⟩
      · intro κ k h
        obtain ⟨rfl, rfl | rfl⟩ := hdoc κ k h
        · refine ⟨fun ha => absurd hx (ha _), fun y hy => ?_⟩
          have h1 := (find?_some_iff t hut _ y).2 hy
          rw [(find?_some_iff t hut _ _).2 hx] at h1
          cases h1
          exact ⟨_, ⟨i, rfl, rfl⟩, by simp [set]⟩
        · exact ⟨fun _ => by simp [set], fun y hy => absurd hy (hno y)⟩
      · intro m hm
        have : m ≠ "verbose" := fun e => hm .int (e ▸ hV)
        simp [set, this]
    · refine ⟨o0, by simp [o0], hknown, ?_, fun _ _ => rfl⟩
      intro κ k h
      obtain ⟨rfl, rfl | rfl⟩ := hdoc κ k h
      · exact ⟨fun _ => rfl, fun y hy => absurd ⟨y, hy⟩ hx⟩
      · exact ⟨fun _ => rfl, fun y hy => absurd hy (hno y)⟩
  obtain ⟨o1, h1, hr⟩ := hex
  obtain ⟨hs, hu⟩ := (read_iff ofInt t hut _ _ multiopt_agree _
    (o1, multioptCalls.map Call.key)).2 ⟨rfl, hr⟩
  unfold multioptInput
  rw [(findSection_iff hf.1 _ _).2 ht]
  simp only [Except.bind]
  rw [show readCalls ofInt t multioptCalls (fun m => if m = "nopts" then none else d.mem m, []) =
    .ok (o1, multioptCalls.map Call.key) from hs]
  simp only [lift, hu, h1]

theorem groupName_injective (i j : Nat) (h : groupName i = groupName j) : i = j := by
  have h' := congrArg String.toList h
  simp only [groupName, String.toList_append] at h'
  exact Nat.repr_injective (String.toList_inj.1 (List.append_cancel_left h'))

/-- Each stage depends only on `[qsc]` and its own section: if two files agree in these, stage `j`
is the same, whatever else they contain. -/
theorem stage_depends (ofInt : Int → F) (zero : F) (f f' : File F) (hf : WellFormed f)
    (hf' : WellFormed f') (new : OptObj F) (d d' r r' : MultiOptObj F)
    (h : multioptInput ofInt zero f new d = .ok r)
    (h' : multioptInput ofInt zero f' new d' = .ok r') (j : Nat) (o o' : OptObj F)
    (ho : r.opts[j]? = some o) (ho' : r'.opts[j]? = some o')
    (hq : ∀ t, ("qsc", t) ∈ f → ("qsc", t) ∈ f')
    (hj : ∀ t, ("opt" ++ toString j, t) ∈ f → ("opt" ++ toString j, t) ∈ f') : o = o' := by
  obtain ⟨t, n, -, -, -, -, -, hs⟩ := (multioptInput_iff ofInt zero f hf new d r).1 h
  obtain ⟨t', n', -, -, -, -, -, hs'⟩ := (multioptInput_iff ofInt zero f' hf' new d' r').1 h'
  have e := hs j o ho
  have e' := hs' j o' ho'
  obtain ⟨-, -, ⟨tq, hq1, hq2⟩, u, hu, -⟩ := (optInput_iff ofInt zero f hf _ _).1 e
  have s1 : findSection f "qsc" = findSection f' "qsc" := by
    rw [(findSection_iff hf.1 _ _).2 hq1, (findSection_iff hf'.1 _ _).2 (hq _ hq1)]
  have s2 : findSection f ("opt" ++ toString j) = findSection f' ("opt" ++ toString j) := by
    rw [(findSection_iff hf.1 _ _).2 hu, (findSection_iff hf'.1 _ _).2 (hj _ hu)]
  unfold optInput inputQsc at e e'
  simp only at e e'
  rw [s1, s2, e'] at e
  exact (Except.ok.inj e).symm

/-- Different stages have different sections, none of which is another section of the program. -/
theorem stage_sections (i j : Nat) :
    ("opt" ++ toString i = "opt" ++ toString j → i = j) ∧
      ("opt" ++ toString i ∉ ["qsc", "opt", "multiopt", "multiopt_scan", "scan"]) := by
  refine ⟨groupName_injective i j, ?_⟩
  have hne : (Nat.repr i).toList ≠ [] := by
    intro h
    have := Nat.length_repr_pos (n := i)
    rw [String.length, h] at this
    simp at this
  intro h
  simp only [List.mem_cons, List.not_mem_nil, or_false] at h
  rcases h with h | h | h | h | h <;> have h := congrArg String.toList h <;>
    simp [toString, String.toList_append] at h

/-! ## C72: the input of a scan of multi-stage optimizations -/

theorem sizeOf_iff (o : Obj F) (m : String) (n : Nat) : sizeOf o m = .ok n ↔ Len o m n := by
  unfold sizeOf Len
  cases h : o m with
  | none => simp
  | some v => cases v <;> simp

theorem assertSizes_iff (o : Obj F) (n : Nat) (ms : List String) :
    assertSizes o n ms = .ok () ↔ ∀ m ∈ ms, Len o m n := by
  induction ms with
  | nil => simp [assertSizes]
  | cons m ms ih =>
    simp only [assertSizes, ebind_iff, sizeOf_iff, List.forall_mem_cons]
    constructor
    · rintro ⟨k, h1, h2⟩
      split at h2
      · rename_i e; subst e; exact ⟨h1, ih.1 h2⟩
      · cases h2
    · rintro ⟨h1, h2⟩
      exact ⟨n, h1, by rw [if_pos rfl]; exact ih.2 h2⟩

/-- `MultiOptScan::input` succeeds exactly if the file is accepted for a multi-stage optimization
(C71), has a section `[multiopt_scan]` with documented keys of the right types, and the six arrays
that describe the scanned parameters have one entry per parameter. -/
theorem multiScanInput_iff (ofInt : Int → F) (zero : F) (f : File F) (hf : WellFormed f)
    (new : OptObj F) (d r : MultiScanObj F) :
    multiScanInput ofInt zero f new d = .ok r ↔
      multioptInput ofInt zero f new d.ref = .ok r.ref ∧
      ∃ t, ("multiopt_scan", t) ∈ f ∧ Read ofInt multiScanDoc t d.mem r.mem ∧
        ∀ m ∈ ["params", "params_min", "params_max", "params_n", "params_stage", "params_log"],
          Len r.mem m r.ndim := by
  unfold multiScanInput
  simp only [ebind_iff, findSection_iff hf.1, lift_iff, sizeOf_iff]
  constructor
  · rintro ⟨mo, hmo, t, ht, s, hs, u, hu, n, hn, _, ha, h⟩
    obtain rfl := Except.ok.inj h
    refine ⟨hmo, t, ht, ((read_iff ofInt t (hf.2 _ ht) _ _ multiScan_agree _ s).1 ⟨hs, hu⟩).2, ?_⟩
    have ha := (assertSizes_iff _ _ _).1 ha
    intro m hm
    simp only [List.mem_cons, List.not_mem_nil, or_false] at hm
    rcases hm with rfl | rfl | rfl | rfl | rfl | rfl
    · exact hn
    all_goals exact ha _ (by simp)
  · rintro ⟨hmo, t, ht, hr, hl⟩
    obtain ⟨hs, hu⟩ := (read_iff ofInt t (hf.2 _ ht) _ _ multiScan_agree _
      (r.mem, multiScanCalls.map Call.key)).2 ⟨rfl, hr⟩
    refine ⟨r.ref, hmo, t, ht, _, hs, (), hu, r.ndim, hl _ (by simp), (), ?_, rfl⟩
    refine (assertSizes_iff _ _ _).2 fun m hm => hl m ?_
    simp only [List.mem_cons, List.not_mem_nil, or_false] at hm ⊢
    rcases hm with rfl | rfl | rfl | rfl | rfl <;> simp

end Qsc.Sections
