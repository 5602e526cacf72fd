import Verif.Lemmas.Toml
import Mathlib.Data.List.Forall2

/-!
# Properties C04, C05: reading input sections
-/

namespace Qsc.Toml
open Qsc.Spec.Toml

/-- The same as `qscInput_ok_iff` in terms of the conversion functions. -/
theorem qscInput_ok_conv {F : Type} (ofInt : Int → F) (zero : F) (t : Table F) (d r : QscIn F)
    (hu : (t.map (·.1)).Nodup) :
    qscInput ofInt zero t d = .ok r ↔
      (∀ k x, (k, x) ∈ t → k ∈ qscKeys) ∧
      ReadsC asInt t "nphi" d.nphi r.nphi ∧
      ReadsC asInt t "nfp" d.nfp r.nfp ∧
      ReadsC (asFloat ofInt) t "eta_bar" d.eta_bar r.eta_bar ∧
      ReadsC asInt t "spsi" d.spsi r.spsi ∧
      ReadsC asInt t "sG" d.sG r.sG ∧
      ReadsC (asFloat ofInt) t "B0" d.B0 r.B0 ∧
      ReadsC (asFloat ofInt) t "I2" d.I2 r.I2 ∧
      ReadsC (asFloat ofInt) t "sigma0" d.sigma0 r.sigma0 ∧
      ReadsC (asFloat ofInt) t "B2s" d.B2s r.B2s ∧
      ReadsC (asFloat ofInt) t "B2c" d.B2c r.B2c ∧
      ReadsC (asFloat ofInt) t "p2" d.p2 r.p2 ∧
      ReadsC asInt t "max_newton_iterations" d.max_newton_iterations r.max_newton_iterations ∧
      ReadsC asInt t "max_linesearch_iterations" d.max_linesearch_iterations
        r.max_linesearch_iterations ∧
      ReadsC (asFloat ofInt) t "newton_tolerance" d.newton_tolerance r.newton_tolerance ∧
      ReadsC asInt t "verbose" d.verbose r.verbose ∧
      ReadsC asStr t "order_r_option" d.order_r_option r.order_r_option ∧
      ∃ R0c R0s Z0c Z0s : List F,
        ReadsC asVector t "R0c" d.R0c R0c ∧ ReadsC asVector t "R0s" d.R0s R0s ∧
        ReadsC asVector t "Z0c" d.Z0c Z0c ∧ ReadsC asVector t "Z0s" d.Z0s Z0s ∧
        let n := max (max R0c.length R0s.length) (max Z0c.length Z0s.length)
        PaddedTo zero n R0c r.R0c ∧ PaddedTo zero n R0s r.R0s ∧
        PaddedTo zero n Z0c r.Z0c ∧ PaddedTo zero n Z0s r.Z0s := by
  have hn : ∀ a b c e : Nat, max (max (max (max 0 a) b) c) e = max (max a b) (max c e) := by
    intro a b c e; omega
  constructor
  · intro h
    unfold qscInput at h
    have next : ∀ {α : Type} (conv : Value F → Except Err α) (k : Key) (v : α) vl
        (a : α × List Key), tomlRead conv t k v vl = .ok a →
        ReadsC conv t k v a.1 ∧ a.2 = vl ++ [k] :=
      fun conv k v vl a h => (tomlRead_ok_iff conv t hu k v vl a).mp h
    obtain ⟨a1, h1, h⟩ := (bind_ok_iff _ _ _).mp h
    obtain ⟨r1, e1⟩ := next _ _ _ _ _ h1
    obtain ⟨a2, h2, h⟩ := (bind_ok_iff _ _ _).mp h
    obtain ⟨r2, e2⟩ := next _ _ _ _ _ h2
    obtain ⟨a3, h3, h⟩ := (bind_ok_iff _ _ _).mp h
    obtain ⟨r3, e3⟩ := next _ _ _ _ _ h3
    obtain ⟨a4, h4, h⟩ := (bind_ok_iff _ _ _).mp h
    obtain ⟨r4, e4⟩ := next _ _ _ _ _ h4
    obtain ⟨a5, h5, h⟩ := (bind_ok_iff _ _ _).mp h
    obtain ⟨r5, e5⟩ := next _ _ _ _ _ h5
    obtain ⟨a6, h6, h⟩ := (bind_ok_iff _ _ _).mp h
    obtain ⟨r6, e6⟩ := next _ _ _ _ _ h6
    obtain ⟨a7, h7, h⟩ := (bind_ok_iff _ _ _).mp h
    obtain ⟨r7, e7⟩ := next _ _ _ _ _ h7
    obtain ⟨a8, h8, h⟩ := (bind_ok_iff _ _ _).mp h
    obtain ⟨r8, e8⟩ := next _ _ _ _ _ h8
    obtain ⟨a9, h9, h⟩ := (bind_ok_iff _ _ _).mp h
    obtain ⟨r9, e9⟩ := next _ _ _ _ _ h9
    obtain ⟨a10, h10, h⟩ := (bind_ok_iff _ _ _).mp h
    obtain ⟨r10, e10⟩ := next _ _ _ _ _ h10
    obtain ⟨a11, h11, h⟩ := (bind_ok_iff _ _ _).mp h
    obtain ⟨r11, e11⟩ := next _ _ _ _ _ h11
    obtain ⟨a12, h12, h⟩ := (bind_ok_iff _ _ _).mp h
    obtain ⟨r12, e12⟩ := next _ _ _ _ _ h12
    obtain ⟨a13, h13, h⟩ := (bind_ok_iff _ _ _).mp h
    obtain ⟨r13, e13⟩ := next _ _ _ _ _ h13
    obtain ⟨a14, h14, h⟩ := (bind_ok_iff _ _ _).mp h
    obtain ⟨r14, e14⟩ := next _ _ _ _ _ h14
    obtain ⟨a15, h15, h⟩ := (bind_ok_iff _ _ _).mp h
    obtain ⟨r15, e15⟩ := next _ _ _ _ _ h15
    obtain ⟨a16, h16, h⟩ := (bind_ok_iff _ _ _).mp h
    obtain ⟨r16, e16⟩ := next _ _ _ _ _ h16
    obtain ⟨a17, h17, h⟩ := (bind_ok_iff _ _ _).mp h
    obtain ⟨r17, e17⟩ := next _ _ _ _ _ h17
    obtain ⟨a18, h18, h⟩ := (bind_ok_iff _ _ _).mp h
    obtain ⟨r18, e18⟩ := next _ _ _ _ _ h18
    obtain ⟨a19, h19, h⟩ := (bind_ok_iff _ _ _).mp h
    obtain ⟨r19, e19⟩ := next _ _ _ _ _ h19
    obtain ⟨a20, h20, h⟩ := (bind_ok_iff _ _ _).mp h
    obtain ⟨r20, e20⟩ := next _ _ _ _ _ h20
    obtain ⟨u, hun, h⟩ := (bind_ok_iff _ _ _).mp h
    obtain ⟨b1, p1, h⟩ := (bind_ok_iff _ _ _).mp h
    obtain ⟨b2, p2, h⟩ := (bind_ok_iff _ _ _).mp h
    obtain ⟨b3, p3, h⟩ := (bind_ok_iff _ _ _).mp h
    obtain ⟨b4, p4, h⟩ := (bind_ok_iff _ _ _).mp h
    rw [padVector_ok_iff, hn] at p1 p2 p3 p4
    rw [e20, e19, e18, e17, e16, e15, e14, e13, e12, e11, e10, e9, e8, e7, e6, e5, e4, e3, e2,
      e1] at hun
    have hun' := (tomlUnused_ok_iff _ t).mp hun
    simp only [pure, Except.pure, Except.ok.injEq] at h
    subst h
    refine ⟨hun', r1, r2, r3, r4, r5, r6, r7, r8, r9, r10, r11, r12, r13, r14, r15, r16,
      a17.1, a18.1, a19.1, a20.1, r17, r18, r19, r20, p1, p2, p3, p4⟩
  · rintro ⟨hun, r1, r2, r3, r4, r5, r6, r7, r8, r9, r10, r11, r12, r13, r14, r15, r16,
      c1, c2, c3, c4, r17, r18, r19, r20, p1, p2, p3, p4⟩
    have step : ∀ {α β : Type} (conv : Value F → Except Err α) (k : Key) (dv v : α) (vl : List Key)
        (f : α × List Key → Except Err β), ReadsC conv t k dv v →
        (tomlRead conv t k dv vl >>= f) = f (v, vl ++ [k]) := by
      intro α β conv k dv v vl f hr
      rw [(tomlRead_ok_iff conv t hu k dv vl (v, vl ++ [k])).mpr ⟨hr, rfl⟩]
      rfl
    have pstep : ∀ {β : Type} (v w : List F) (n : Nat) (f : List F → Except Err β),
        PaddedTo zero n v w → (padVector zero v n >>= f) = f w := by
      intro β v w n f hp
      rw [(padVector_ok_iff zero v n w).mpr hp]
      rfl
    unfold qscInput
    rw [step _ _ _ _ _ _ r1]
    dsimp only
    rw [step _ _ _ _ _ _ r2]
    dsimp only
    rw [step _ _ _ _ _ _ r3]
    dsimp only
    rw [step _ _ _ _ _ _ r4]
    dsimp only
    rw [step _ _ _ _ _ _ r5]
    dsimp only
    rw [step _ _ _ _ _ _ r6]
    dsimp only
    rw [step _ _ _ _ _ _ r7]
    dsimp only
    rw [step _ _ _ _ _ _ r8]
    dsimp only
    rw [step _ _ _ _ _ _ r9]
    dsimp only
    rw [step _ _ _ _ _ _ r10]
    dsimp only
    rw [step _ _ _ _ _ _ r11]
    dsimp only
    rw [step _ _ _ _ _ _ r12]
    dsimp only
    rw [step _ _ _ _ _ _ r13]
    dsimp only
    rw [step _ _ _ _ _ _ r14]
    dsimp only
    rw [step _ _ _ _ _ _ r15]
    dsimp only
    rw [step _ _ _ _ _ _ r16]
    dsimp only
    rw [step _ _ _ _ _ _ r17]
    dsimp only
    rw [step _ _ _ _ _ _ r18]
    dsimp only
    rw [step _ _ _ _ _ _ r19]
    dsimp only
    rw [step _ _ _ _ _ _ r20]
    dsimp only
    have ustep : ∀ {β : Type} (vl : List Key) (f : Unit → Except Err β), vl = qscKeys →
        (tomlUnused vl t >>= f) = f () := by
      intro β vl f hv
      rw [hv, (tomlUnused_ok_iff _ t).mpr hun]
      rfl
    rw [ustep]
    · rw [hn, pstep _ _ _ _ p1, pstep _ _ _ _ p2, pstep _ _ _ _ p3, pstep _ _ _ _ p4]
      rfl
    · rfl

/-- **C04/C05.** `Qsc::input` on a section with unique keys succeeds with configuration `r`
if and only if every key of the section is a documented key, every scalar of `r` is the
value given (converted), or the default when absent, and the four Fourier arrays are the
given (or default) arrays zero padded to their maximal length. -/
theorem qscInput_ok_iff {F : Type} (ofInt : Int → F) (zero : F) (t : Table F) (d r : QscIn F)
    (hu : (t.map (·.1)).Nodup) :
    qscInput ofInt zero t d = .ok r ↔
      (∀ k x, (k, x) ∈ t → k ∈ qscKeys) ∧
      Reads IsInt t "nphi" d.nphi r.nphi ∧
      Reads IsInt t "nfp" d.nfp r.nfp ∧
      Reads (IsFloat ofInt) t "eta_bar" d.eta_bar r.eta_bar ∧
      Reads IsInt t "spsi" d.spsi r.spsi ∧
      Reads IsInt t "sG" d.sG r.sG ∧
      Reads (IsFloat ofInt) t "B0" d.B0 r.B0 ∧
      Reads (IsFloat ofInt) t "I2" d.I2 r.I2 ∧
      Reads (IsFloat ofInt) t "sigma0" d.sigma0 r.sigma0 ∧
      Reads (IsFloat ofInt) t "B2s" d.B2s r.B2s ∧
      Reads (IsFloat ofInt) t "B2c" d.B2c r.B2c ∧
      Reads (IsFloat ofInt) t "p2" d.p2 r.p2 ∧
      Reads IsInt t "max_newton_iterations" d.max_newton_iterations r.max_newton_iterations ∧
      Reads IsInt t "max_linesearch_iterations" d.max_linesearch_iterations
        r.max_linesearch_iterations ∧
      Reads (IsFloat ofInt) t "newton_tolerance" d.newton_tolerance r.newton_tolerance ∧
      Reads IsInt t "verbose" d.verbose r.verbose ∧
      Reads IsStr t "order_r_option" d.order_r_option r.order_r_option ∧
      ∃ R0c R0s Z0c Z0s : List F,
        Reads IsVector t "R0c" d.R0c R0c ∧ Reads IsVector t "R0s" d.R0s R0s ∧
        Reads IsVector t "Z0c" d.Z0c Z0c ∧ Reads IsVector t "Z0s" d.Z0s Z0s ∧
        let n := max (max R0c.length R0s.length) (max Z0c.length Z0s.length)
        PaddedTo zero n R0c r.R0c ∧ PaddedTo zero n R0s r.R0s ∧
        PaddedTo zero n Z0c r.Z0c ∧ PaddedTo zero n Z0s r.Z0s := by
  rw [qscInput_ok_conv ofInt zero t d r hu]
  simp only [ReadsC, asInt_is, asFloat_is, asStr_is, asVector_is]

/-- **C04.** A misspelt key can never be silently ignored: any undocumented key makes the
reading fail. -/
theorem qscInput_unknown_key {F : Type} (ofInt : Int → F) (zero : F) (t : Table F) (d : QscIn F)
    (hu : (t.map (·.1)).Nodup) (k : Key) (x : Value F) (hk : (k, x) ∈ t) (hn : k ∉ qscKeys) :
    ∃ e, qscInput ofInt zero t d = .error e := by
  cases h : qscInput ofInt zero t d with
  | error e => exact ⟨e, rfl⟩
  | ok r => exact absurd (((qscInput_ok_iff ofInt zero t d r hu).mp h).1 k x hk) hn

/-- **C04.** Conversely the reading can only fail for one of two reasons: an undocumented
key, or a present value of the wrong type; the padding assertion never fires. -/
theorem qscInput_error_reason {F : Type} (ofInt : Int → F) (zero : F) (t : Table F) (d : QscIn F)
    (e : Err) (h : qscInput ofInt zero t d = .error e) :
    (e = .typeError ∧ ∃ k x, (k, x) ∈ t ∧ ¬ HasKind k x) ∨
      ∃ k x, (k, x) ∈ t ∧ k ∉ qscKeys ∧ e = .unusedKey k := by
  have I : ∀ (k : Key) (v : Int) vl e, tomlRead asInt t k v vl = .error e →
      (∀ x : Value F, HasKind k x → ∃ i, x = .int i) →
      e = .typeError ∧ ∃ k x, (k, x) ∈ t ∧ ¬ HasKind k x := by
    intro k v vl e h hk
    obtain ⟨x, hm, hc⟩ := tomlRead_error _ _ _ _ _ _ h
    exact ⟨(asInt_error hc).1, k, x, hm, fun hh => (asInt_error hc).2 (hk x hh)⟩
  have Fl : ∀ (k : Key) (v : F) vl e, tomlRead (asFloat ofInt) t k v vl = .error e →
      (∀ x : Value F, HasKind k x → (∃ y, x = .flt y) ∨ ∃ i, x = .int i) →
      e = .typeError ∧ ∃ k x, (k, x) ∈ t ∧ ¬ HasKind k x := by
    intro k v vl e h hk
    obtain ⟨x, hm, hc⟩ := tomlRead_error _ _ _ _ _ _ h
    exact ⟨(asFloat_error hc).1, k, x, hm, fun hh => (asFloat_error hc).2 (hk x hh)⟩
  have S : ∀ (k : Key) (v : String) vl e, tomlRead asStr t k v vl = .error e →
      (∀ x : Value F, HasKind k x → ∃ s, x = .str s) →
      e = .typeError ∧ ∃ k x, (k, x) ∈ t ∧ ¬ HasKind k x := by
    intro k v vl e h hk
    obtain ⟨x, hm, hc⟩ := tomlRead_error _ _ _ _ _ _ h
    exact ⟨(asStr_error hc).1, k, x, hm, fun hh => (asStr_error hc).2 (hk x hh)⟩
  have V : ∀ (k : Key) (v : List F) vl e, tomlRead asVector t k v vl = .error e →
      (∀ x : Value F, HasKind k x → ∃ l : List F, x = .arr (l.map .flt)) →
      e = .typeError ∧ ∃ k x, (k, x) ∈ t ∧ ¬ HasKind k x := by
    intro k v vl e h hk
    obtain ⟨x, hm, hc⟩ := tomlRead_error _ _ _ _ _ _ h
    exact ⟨(asVector_error hc).1, k, x, hm, fun hh => (asVector_error hc).2 (hk x hh)⟩
  have next : ∀ {α : Type} (conv : Value F → Except Err α) (k : Key) (v : α) vl (a : α × List Key),
      tomlRead conv t k v vl = .ok a → a.2 = vl ++ [k] := by
    intro α conv k v vl a h
    unfold tomlRead at h
    split at h
    · rw [bind_ok_iff] at h
      obtain ⟨b, _, hb⟩ := h
      cases hb; rfl
    · cases h; rfl
  unfold qscInput at h
  rw [bind_error_iff] at h
  rcases h with h | ⟨a1, h1, h⟩
  · exact Or.inl (I _ _ _ _ h (by intro x hx; simpa [HasKind] using hx))
  have e1 := next _ _ _ _ _ h1
  rw [bind_error_iff] at h
  rcases h with h | ⟨a2, h2, h⟩
  · exact Or.inl (I _ _ _ _ h (by intro x hx; simpa [HasKind] using hx))
  have e2 := next _ _ _ _ _ h2
  rw [bind_error_iff] at h
  rcases h with h | ⟨a3, h3, h⟩
  · exact Or.inl (Fl _ _ _ _ h (by intro x hx; simpa [HasKind] using hx))
  have e3 := next _ _ _ _ _ h3
  rw [bind_error_iff] at h
  rcases h with h | ⟨a4, h4, h⟩
  · exact Or.inl (I _ _ _ _ h (by intro x hx; simpa [HasKind] using hx))
  have e4 := next _ _ _ _ _ h4
  rw [bind_error_iff] at h
  rcases h with h | ⟨a5, h5, h⟩
  · exact Or.inl (I _ _ _ _ h (by intro x hx; simpa [HasKind] using hx))
  have e5 := next _ _ _ _ _ h5
  rw [bind_error_iff] at h
  rcases h with h | ⟨a6, h6, h⟩
  · exact Or.inl (Fl _ _ _ _ h (by intro x hx; simpa [HasKind] using hx))
  have e6 := next _ _ _ _ _ h6
  rw [bind_error_iff] at h
  rcases h with h | ⟨a7, h7, h⟩
  · exact Or.inl (Fl _ _ _ _ h (by intro x hx; simpa [HasKind] using hx))
  have e7 := next _ _ _ _ _ h7
  rw [bind_error_iff] at h
  rcases h with h | ⟨a8, h8, h⟩
  · exact Or.inl (Fl _ _ _ _ h (by intro x hx; simpa [HasKind] using hx))
  have e8 := next _ _ _ _ _ h8
  rw [bind_error_iff] at h
  rcases h with h | ⟨a9, h9, h⟩
  · exact Or.inl (Fl _ _ _ _ h (by intro x hx; simpa [HasKind] using hx))
  have e9 := next _ _ _ _ _ h9
  rw [bind_error_iff] at h
  rcases h with h | ⟨a10, h10, h⟩
  · exact Or.inl (Fl _ _ _ _ h (by intro x hx; simpa [HasKind] using hx))
  have e10 := next _ _ _ _ _ h10
  rw [bind_error_iff] at h
  rcases h with h | ⟨a11, h11, h⟩
  · exact Or.inl (Fl _ _ _ _ h (by intro x hx; simpa [HasKind] using hx))
  have e11 := next _ _ _ _ _ h11
  rw [bind_error_iff] at h
  rcases h with h | ⟨a12, h12, h⟩
  · exact Or.inl (I _ _ _ _ h (by intro x hx; simpa [HasKind] using hx))
  have e12 := next _ _ _ _ _ h12
  rw [bind_error_iff] at h
  rcases h with h | ⟨a13, h13, h⟩
  · exact Or.inl (I _ _ _ _ h (by intro x hx; simpa [HasKind] using hx))
  have e13 := next _ _ _ _ _ h13
  rw [bind_error_iff] at h
  rcases h with h | ⟨a14, h14, h⟩
  · exact Or.inl (Fl _ _ _ _ h (by intro x hx; simpa [HasKind] using hx))
  have e14 := next _ _ _ _ _ h14
  rw [bind_error_iff] at h
  rcases h with h | ⟨a15, h15, h⟩
  · exact Or.inl (I _ _ _ _ h (by intro x hx; simpa [HasKind] using hx))
  have e15 := next _ _ _ _ _ h15
  rw [bind_error_iff] at h
  rcases h with h | ⟨a16, h16, h⟩
  · exact Or.inl (S _ _ _ _ h (by intro x hx; simpa [HasKind] using hx))
  have e16 := next _ _ _ _ _ h16
  rw [bind_error_iff] at h
  rcases h with h | ⟨a17, h17, h⟩
  · exact Or.inl (V _ _ _ _ h (by intro x hx; simpa [HasKind] using hx))
  have e17 := next _ _ _ _ _ h17
  rw [bind_error_iff] at h
  rcases h with h | ⟨a18, h18, h⟩
  · exact Or.inl (V _ _ _ _ h (by intro x hx; simpa [HasKind] using hx))
  have e18 := next _ _ _ _ _ h18
  rw [bind_error_iff] at h
  rcases h with h | ⟨a19, h19, h⟩
  · exact Or.inl (V _ _ _ _ h (by intro x hx; simpa [HasKind] using hx))
  have e19 := next _ _ _ _ _ h19
  rw [bind_error_iff] at h
  rcases h with h | ⟨a20, h20, h⟩
  · exact Or.inl (V _ _ _ _ h (by intro x hx; simpa [HasKind] using hx))
  have e20 := next _ _ _ _ _ h20
  rw [bind_error_iff] at h
  rcases h with h | ⟨_, _, h⟩
  · right
    obtain ⟨k, x, hm, hk, he⟩ := tomlUnused_error _ _ _ h
    rw [e20, e19, e18, e17, e16, e15, e14, e13, e12, e11, e10, e9, e8, e7, e6, e5, e4, e3, e2,
      e1] at hk
    exact ⟨k, x, hm, hk, he⟩
  exfalso
  have pad : ∀ (v : List F) n e, v.length ≤ n → padVector zero v n ≠ .error e := by
    intro v n e hv
    unfold padVector
    rw [if_pos hv]
    exact fun h => nomatch h
  rw [bind_error_iff] at h
  rcases h with h | ⟨w1, _, h⟩
  · exact pad _ _ _ (by omega) h
  rw [bind_error_iff] at h
  rcases h with h | ⟨w2, _, h⟩
  · exact pad _ _ _ (by omega) h
  rw [bind_error_iff] at h
  rcases h with h | ⟨w3, _, h⟩
  · exact pad _ _ _ (by omega) h
  rw [bind_error_iff] at h
  rcases h with h | ⟨w4, _, h⟩
  · exact pad _ _ _ (by omega) h
  cases h

/-- **C04 (acceptance).** A section whose keys are all documented and whose values have the
documented types is always read successfully. -/
theorem qscInput_accepts {F : Type} (ofInt : Int → F) (zero : F) (t : Table F) (d : QscIn F)
    (hk : ∀ k x, (k, x) ∈ t → k ∈ qscKeys ∧ HasKind k x) :
    ∃ r, qscInput ofInt zero t d = .ok r := by
  cases h : qscInput ofInt zero t d with
  | ok r => exact ⟨r, rfl⟩
  | error e =>
    rcases qscInput_error_reason ofInt zero t d e h with ⟨_, k, x, hm, hh⟩ | ⟨k, x, hm, hh, _⟩
    · exact absurd (hk k x hm).2 hh
    · exact absurd (hk k x hm).1 hh

/-- Non-vacuity: defaults of `Qsc::defaults` / `Qsc::Qsc` (qsc.cpp lines 6-42) with integers as
the float type, and a section giving `nfp`, a float as an integer, and two arrays of
different length. -/
def exDefaults : QscIn Int :=
  { nphi := 15, nfp := 3, eta_bar := -1, spsi := 1, sG := 1, B0 := 1, I2 := 0, sigma0 := 0,
    B2s := 0, B2c := 0, p2 := 0, max_newton_iterations := 12, max_linesearch_iterations := 4,
    newton_tolerance := 0, verbose := 1, order_r_option := "r1", R0c := [1], R0s := [0],
    Z0c := [0], Z0s := [0] }

def exTable : Table Int :=
  [("nfp", .int 5), ("eta_bar", .int 2), ("R0c", .arr [.flt 1, .flt 7]), ("Z0s", .arr [.flt 0, .flt 9, .flt 4])]

example : (exTable.map (·.1)).Nodup := by decide

example : ∃ r, qscInput id 0 exTable exDefaults = .ok r ∧ r.nfp = 5 ∧ r.nphi = 15 ∧ r.eta_bar = 2 ∧
    r.R0c = [1, 7, 0] ∧ r.R0s = [0, 0, 0] ∧ r.Z0s = [0, 9, 4] := ⟨_, rfl, by decide⟩

example : qscInput id 0 (("etabar", .int 1) :: exTable) exDefaults
    = .error (.unusedKey "etabar") := by rfl

/-- The common length: the maximum of the given lengths (0 for no arrays). -/
def IsMaxLength {F : Type} (vs : List (List F)) (n : Nat) : Prop :=
  (∀ v ∈ vs, v.length ≤ n) ∧ (vs = [] ∧ n = 0 ∨ ∃ v ∈ vs, v.length = n)

/-- **C05.** The padding group of `Scan::input` (any number of arrays): the assertion never
fires; every array is padded with zeros to the maximal length. -/
theorem padAll_spec {F : Type} (zero : F) (vs : List (List F)) :
    ∃ n ws, padAll zero vs = .ok ws ∧ IsMaxLength vs n ∧ List.Forall₂ (PaddedTo zero n) vs ws := by
  have hfold : ∀ (l : List (List F)) (m : Nat),
      (∀ v ∈ l, v.length ≤ l.foldl (fun m v => max m v.length) m) ∧
      m ≤ l.foldl (fun m v => max m v.length) m ∧
      (l.foldl (fun m v => max m v.length) m = m ∨
        ∃ v ∈ l, v.length = l.foldl (fun m v => max m v.length) m) := by
    intro l
    induction l with
    | nil => intro m; simp
    | cons a l ih =>
      intro m
      obtain ⟨h1, h2, h3⟩ := ih (max m a.length)
      simp only [List.foldl_cons]
      refine ⟨?_, by omega, ?_⟩
      · intro v hv
        rcases List.mem_cons.mp hv with rfl | hv
        · omega
        · exact h1 v hv
      · rcases h3 with h3 | ⟨v, hv, h3⟩
        · rcases Nat.le_total m a.length with hm | hm
          · right; exact ⟨a, List.mem_cons_self .., by omega⟩
          · left; omega
        · right; exact ⟨v, List.mem_cons_of_mem _ hv, h3⟩
  obtain ⟨h1, _, h3⟩ := hfold vs 0
  have hmap : ∀ (n : Nat) (l : List (List F)), (∀ v ∈ l, v.length ≤ n) →
      ∃ ws, l.mapM (fun v => padVector zero v n) = .ok ws ∧
        List.Forall₂ (PaddedTo zero n) l ws := by
    intro n l
    induction l with
    | nil => intro _; exact ⟨[], rfl, .nil⟩
    | cons a l ih =>
      intro hl
      obtain ⟨ws, h, hf⟩ := ih (fun v hv => hl v (List.mem_cons_of_mem _ hv))
      have ha := hl a (List.mem_cons_self ..)
      have hp : padVector zero a n = .ok (a ++ List.replicate (n - a.length) zero) := by
        unfold padVector; rw [if_pos ha]
      refine ⟨(a ++ List.replicate (n - a.length) zero) :: ws, ?_, ?_⟩
      · rw [List.mapM_cons, hp, h]; rfl
      · exact .cons ((padVector_ok_iff _ _ _ _).mp hp) hf
  obtain ⟨ws, h, hf⟩ := hmap _ vs h1
  refine ⟨_, ws, h, ⟨h1, ?_⟩, hf⟩
  rcases h3 with h3 | h3
  · cases vs with
    | nil => left; exact ⟨rfl, h3⟩
    | cons a l =>
      right
      refine ⟨a, List.mem_cons_self .., ?_⟩
      have := h1 a (List.mem_cons_self ..)
      rw [h3] at this ⊢
      omega
  · exact Or.inr h3

/-- **C05 (idempotence).** Padding arrays that already have a common length changes nothing. -/
theorem padAll_idem {F : Type} (zero : F) (vs ws : List (List F)) (h : padAll zero vs = .ok ws) :
    padAll zero ws = .ok ws := by
  obtain ⟨n, ws', h', hmax, hf⟩ := padAll_spec zero vs
  rw [h] at h'; cases h'
  have hlen : ∀ w ∈ ws, w.length = n := by
    intro w hw
    clear h hmax
    induction hf with
    | nil => cases hw
    | cons ha _ ih =>
      rcases List.mem_cons.mp hw with rfl | hw
      · exact ha.1
      · exact ih hw
  obtain ⟨m, us, h2, ⟨hm1, hm2⟩, hf2⟩ := padAll_spec zero ws
  rw [h2]
  congr 1
  have hmn : ∀ w ∈ ws, m = w.length := by
    intro w hw
    rcases hm2 with ⟨rfl, _⟩ | ⟨v, hv, rfl⟩
    · cases hw
    · rw [hlen v hv, hlen w hw]
  clear h h2 hf hlen hm1 hm2
  induction hf2 with
  | nil => rfl
  | @cons a b l1 l2 ha _ ih =>
    have h1 := hmn a (List.mem_cons_self ..)
    have : b = a := by
      apply List.ext_getElem?
      intro i
      by_cases hi : i < a.length
      · rw [ha.2.2.1 i hi]; simp [hi]
      · rw [List.getElem?_eq_none (by have := ha.1; omega), List.getElem?_eq_none (by omega)]
    rw [this, ih (fun w hw => hmn w (List.mem_cons_of_mem _ hw))]

/-- Non-vacuity. -/
example : padAll (0 : Int) [[1], [2, 3, 4], []] = .ok [[1, 0, 0], [2, 3, 4], [0, 0, 0]] := rfl

end Qsc.Toml
