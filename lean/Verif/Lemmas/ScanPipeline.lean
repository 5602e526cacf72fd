import Verif.Spec.ScanPipeline
import Verif.Lemmas.Pipeline
import Verif.Props.ScanDraws
import Verif.Props.Setup

/-!
Helper lemmas for C76 and C77.
-/

namespace Qsc.ScanPipeline

open Qsc.Sections Qsc.Pipeline Qsc.Spec.Sections Qsc.Spec.ScanPipeline Qsc.Spec.Random
open Qsc.ScanDraws Qsc.Random

/-! ## Reading the members -/

theorem scan_bool {o : Obj ℝ} (h : Typed scanDoc o) {k : String}
    (hk : k ∈ ["deterministic", "keep_all"]) : ∃ b, o k = some (.bool b) := by
  obtain ⟨v, hv, b, rfl⟩ := h .bool k ⟨_, by simp [scanDoc], hk⟩
  exact ⟨b, hv⟩

theorem scan_int {o : Obj ℝ} (h : Typed scanDoc o) {k : String}
    (hk : k ∈ ["helicity_to_keep", "max_attempts_per_proc", "max_keep_per_proc"]) :
    ∃ b, o k = some (.int b) := by
  obtain ⟨v, hv, b, rfl⟩ := h .int k ⟨_, by simp [scanDoc], hk⟩
  exact ⟨b, hv⟩

theorem scan_str {o : Obj ℝ} (h : Typed scanDoc o) {k : String}
    (hk : k ∈ ["eta_bar_scan_option", "sigma0_scan_option", "B2s_scan_option", "B2c_scan_option",
     "p2_scan_option", "fourier_scan_option"]) : ∃ b, o k = some (.str b) := by
  obtain ⟨v, hv, b, rfl⟩ := h .str k ⟨_, by simp [scanDoc], hk⟩
  exact ⟨b, hv⟩

theorem scan_flt {o : Obj ℝ} (h : Typed scanDoc o) {k : String}
    (hk : k ∈ ["eta_bar_min", "eta_bar_max", "sigma0_min", "sigma0_max", "B2s_min", "B2s_max",
     "B2c_min", "B2c_max", "p2_min", "p2_max", "max_seconds", "save_period", "min_R0_to_keep",
     "min_iota_to_keep", "max_elongation_to_keep", "min_L_grad_B_to_keep",
     "min_L_grad_grad_B_to_keep", "max_B20_variation_to_keep", "min_r_singularity_to_keep",
     "max_d2_volume_d_psi2_to_keep", "min_DMerc_times_r2_to_keep", "min_beta_to_keep"]) :
    ∃ b, o k = some (.flt b) := by
  obtain ⟨v, hv, b, rfl⟩ := h .flt k ⟨_, by simp [scanDoc], hk⟩
  exact ⟨b, hv⟩

/-- Array members of common length. -/
theorem scan_flts {o : Obj ℝ} (h : Typed scanDoc o) {n : Nat} (hn : ModeCount o n) {k : String}
    (hk : k ∈ boundArrays) : ∃ l : List ℝ, o k = some (.flts l) ∧ l.length = n := by
  obtain ⟨v, hv, b, rfl⟩ := h .flts k ⟨boundArrays, by simp [scanDoc, boundArrays], hk⟩
  refine ⟨b, hv, ?_⟩
  rcases hn k hk with ⟨l, e, hl⟩ | ⟨l, e, hl⟩ | ⟨l, e, hl⟩ | ⟨l, e, hl⟩ <;> rw [hv] at e <;> cases e
  exact hl

theorem mapM_ok {ε α β : Type} {f : α → Except ε β} {Q : α → β → Prop} (l : List α)
    (h : ∀ a ∈ l, ∃ b, f a = .ok b ∧ Q a b) :
    ∃ bs, l.mapM f = .ok bs ∧ List.Forall₂ Q l bs := by
  induction l with
  | nil => exact ⟨[], rfl, .nil⟩
  | cons a l ih =>
    obtain ⟨b, h1, h2⟩ := h a (by simp)
    obtain ⟨bs, h3, h4⟩ := ih fun x hx => h x (by simp [hx])
    refine ⟨b :: bs, ?_, .cons h2 h4⟩
    rw [List.mapM_cons, h1]
    change (do let y ← List.mapM f l; pure (b :: y)) = _
    rw [h3]
    rfl

/-- A range read from two scalars. -/
def IsRange (o : Obj ℝ) (lo hi : String) (r : Range) : Prop :=
  o lo = some (.flt r.min) ∧ o hi = some (.flt r.max)

/-- A range read from two arrays. -/
def IsRangeAt (o : Obj ℝ) (lo hi : String) (j : Nat) (r : Range) : Prop :=
  ∃ la lb, o lo = some (.flts la) ∧ o hi = some (.flts lb) ∧ la[j]? = some r.min ∧
    lb[j]? = some r.max

structure IsMode (o : Obj ℝ) (j : Nat) (m : Mode) : Prop where
  R0c : IsRangeAt o "R0c_min" "R0c_max" j m.R0c
  R0s : IsRangeAt o "R0s_min" "R0s_max" j m.R0s
  Z0c : IsRangeAt o "Z0c_min" "Z0c_max" j m.Z0c
  Z0s : IsRangeAt o "Z0s_min" "Z0s_max" j m.Z0s

/-- The settings of the generators are the members. -/
structure IsSettings (r : ScanObj ℝ) (n : Nat) (c : Settings) : Prop where
  deterministic : r.mem "deterministic" = some (.bool c.deterministic)
  etaBarOption : r.mem "eta_bar_scan_option" = some (.str c.etaBarOption)
  etaBar : IsRange r.mem "eta_bar_min" "eta_bar_max" c.etaBar
  sigma0Option : r.mem "sigma0_scan_option" = some (.str c.sigma0Option)
  sigma0 : IsRange r.mem "sigma0_min" "sigma0_max" c.sigma0
  B2cOption : r.mem "B2c_scan_option" = some (.str c.B2cOption)
  B2c : IsRange r.mem "B2c_min" "B2c_max" c.B2c
  B2sOption : r.mem "B2s_scan_option" = some (.str c.B2sOption)
  B2s : IsRange r.mem "B2s_min" "B2s_max" c.B2s
  p2Option : r.mem "p2_scan_option" = some (.str c.p2Option)
  p2 : IsRange r.mem "p2_min" "p2_max" c.p2
  fourierOption : r.mem "fourier_scan_option" = some (.str c.fourierOption)
  modes : List.Forall₂ (IsMode r.mem) (List.range n) c.modes
  attempts : r.mem "max_attempts_per_proc" = some (.int c.attempts)
  old : c.oldB2c = r.q.B2c ∧ c.oldB2s = r.q.B2s ∧ c.oldP2 = r.q.p2

theorem rangeOf_ok {o : Obj ℝ} {lo hi : String} {a b : ℝ} (h1 : o lo = some (.flt a))
    (h2 : o hi = some (.flt b)) : rangeOf o lo hi = .ok ⟨a, b⟩ := by
  simp [rangeOf, getFlt, h1, h2, need, Except.bind]

theorem rangeAt_ok {o : Obj ℝ} (h : Typed scanDoc o) {n : Nat} (hn : ModeCount o n)
    {lo hi : String} (h1 : lo ∈ boundArrays) (h2 : hi ∈ boundArrays) {j : Nat} (hj : j < n) :
    ∃ r, rangeAt o lo hi j = .ok r ∧ IsRangeAt o lo hi j r := by
  obtain ⟨la, e1, l1⟩ := scan_flts h hn h1
  obtain ⟨lb, e2, l2⟩ := scan_flts h hn h2
  have g1 : la[j]? = some la[j] := List.getElem?_eq_getElem (l1 ▸ hj)
  have g2 : lb[j]? = some lb[j] := List.getElem?_eq_getElem (l2 ▸ hj)
  exact ⟨⟨la[j], lb[j]⟩, by simp [rangeAt, getFlts, e1, e2, g1, g2, need, Except.bind],
    la, lb, e1, e2, g1, g2⟩

theorem modeAt_ok {o : Obj ℝ} (h : Typed scanDoc o) {n : Nat} (hn : ModeCount o n)
    {j : Nat} (hj : j < n) : ∃ m, modeAt o j = .ok m ∧ IsMode o j m := by
  obtain ⟨a, a1, a2⟩ := rangeAt_ok h hn (lo := "R0c_min") (hi := "R0c_max")
    (by simp [boundArrays]) (by simp [boundArrays]) hj
  obtain ⟨b, b1, b2⟩ := rangeAt_ok h hn (lo := "R0s_min") (hi := "R0s_max")
    (by simp [boundArrays]) (by simp [boundArrays]) hj
  obtain ⟨c, c1, c2⟩ := rangeAt_ok h hn (lo := "Z0c_min") (hi := "Z0c_max")
    (by simp [boundArrays]) (by simp [boundArrays]) hj
  obtain ⟨d, d1, d2⟩ := rangeAt_ok h hn (lo := "Z0s_min") (hi := "Z0s_max")
    (by simp [boundArrays]) (by simp [boundArrays]) hj
  exact ⟨⟨a, b, c, d⟩, by simp [modeAt, a1, b1, c1, d1, Except.bind], a2, b2, c2, d2⟩

theorem settingsOf_ok {r : ScanObj ℝ} (h : Typed scanDoc r.mem) {n : Nat}
    (hn : ModeCount r.mem n) : ∃ c, settingsOf r = .ok c ∧ IsSettings r n c := by
  obtain ⟨x1, h1⟩ := scan_bool h (k := "deterministic") (by simp)
  obtain ⟨x2, h2⟩ := scan_str h (k := "eta_bar_scan_option") (by simp)
  obtain ⟨x3, h3⟩ := scan_str h (k := "sigma0_scan_option") (by simp)
  obtain ⟨x4, h4⟩ := scan_str h (k := "B2c_scan_option") (by simp)
  obtain ⟨x5, h5⟩ := scan_str h (k := "B2s_scan_option") (by simp)
  obtain ⟨x6, h6⟩ := scan_str h (k := "p2_scan_option") (by simp)
  obtain ⟨x7, h7⟩ := scan_str h (k := "fourier_scan_option") (by simp)
  obtain ⟨a1, e1⟩ := scan_flt h (k := "eta_bar_min") (by simp)
  obtain ⟨b1, f1⟩ := scan_flt h (k := "eta_bar_max") (by simp)
  obtain ⟨a2, e2⟩ := scan_flt h (k := "sigma0_min") (by simp)
  obtain ⟨b2, f2⟩ := scan_flt h (k := "sigma0_max") (by simp)
  obtain ⟨a3, e3⟩ := scan_flt h (k := "B2c_min") (by simp)
  obtain ⟨b3, f3⟩ := scan_flt h (k := "B2c_max") (by simp)
  obtain ⟨a4, e4⟩ := scan_flt h (k := "B2s_min") (by simp)
  obtain ⟨b4, f4⟩ := scan_flt h (k := "B2s_max") (by simp)
  obtain ⟨a5, e5⟩ := scan_flt h (k := "p2_min") (by simp)
  obtain ⟨b5, f5⟩ := scan_flt h (k := "p2_max") (by simp)
  obtain ⟨x8, h8, l8⟩ := scan_flts h hn (k := "R0c_max") (by simp [boundArrays])
  obtain ⟨x9, h9⟩ := scan_int h (k := "max_attempts_per_proc") (by simp)
  obtain ⟨ms, m1, m2⟩ := mapM_ok (f := modeAt r.mem) (Q := IsMode r.mem) (List.range n)
    fun j hj => modeAt_ok h hn (List.mem_range.1 hj)
  refine ⟨⟨x1, x2, ⟨a1, b1⟩, x3, ⟨a2, b2⟩, x4, ⟨a3, b3⟩, x5, ⟨a4, b4⟩, x6, ⟨a5, b5⟩, x7, ms, x9,
    false, r.q.B2c, r.q.B2s, r.q.p2⟩, ?_, ?_⟩
  · unfold settingsOf
    simp only [getBool, getStr, getFlts, getInt, h1, h2, h3, h4, h5, h6, h7, h8, h9, need,
      Except.bind, rangeOf_ok e1 f1, rangeOf_ok e2 f2, rangeOf_ok e3 f3, rangeOf_ok e4 f4,
      rangeOf_ok e5 f5, l8, m1]
  · exact ⟨h1, h2, ⟨e1, f1⟩, h3, ⟨e2, f2⟩, h4, ⟨e3, f3⟩, h5, ⟨e4, f4⟩, h6, ⟨e5, f5⟩, h7, m2, h9,
      rfl, rfl, rfl⟩

/-- The thresholds are the members. -/
structure IsCfg (o : Obj ℝ) (c : Scan.Cfg ℝ) : Prop where
  keepAll : o "keep_all" = some (.bool c.keepAll)
  helicityToKeep : o "helicity_to_keep" = some (.int c.helicityToKeep)
  minR0 : o "min_R0_to_keep" = some (.flt c.minR0)
  minIota : o "min_iota_to_keep" = some (.flt c.minIota)
  maxElongation : o "max_elongation_to_keep" = some (.flt c.maxElongation)
  minLGradB : o "min_L_grad_B_to_keep" = some (.flt c.minLGradB)
  minLGradGradB : o "min_L_grad_grad_B_to_keep" = some (.flt c.minLGradGradB)
  maxB20Variation : o "max_B20_variation_to_keep" = some (.flt c.maxB20Variation)
  minRSingularity : o "min_r_singularity_to_keep" = some (.flt c.minRSingularity)
  maxD2Volume : o "max_d2_volume_d_psi2_to_keep" = some (.flt c.maxD2Volume)
  minDMerc : o "min_DMerc_times_r2_to_keep" = some (.flt c.minDMerc)
  minBeta : o "min_beta_to_keep" = some (.flt c.minBeta)
  maxKeep : o "max_keep_per_proc" = some (.int c.maxKeep)
  maxAttempts : o "max_attempts_per_proc" = some (.int c.maxAttempts)

theorem cfgOf_ok {r : ScanObj ℝ} (h : Typed scanDoc r.mem) (r2 : Bool) :
    ∃ c, cfgOf r r2 = .ok c ∧ IsCfg r.mem c ∧ c.r2 = r2 := by
  obtain ⟨x1, h1⟩ := scan_bool h (k := "keep_all") (by simp)
  obtain ⟨x2, h2⟩ := scan_int h (k := "helicity_to_keep") (by simp)
  obtain ⟨x3, h3⟩ := scan_flt h (k := "min_R0_to_keep") (by simp)
  obtain ⟨x4, h4⟩ := scan_flt h (k := "min_iota_to_keep") (by simp)
  obtain ⟨x5, h5⟩ := scan_flt h (k := "max_elongation_to_keep") (by simp)
  obtain ⟨x6, h6⟩ := scan_flt h (k := "min_L_grad_B_to_keep") (by simp)
  obtain ⟨x7, h7⟩ := scan_flt h (k := "min_L_grad_grad_B_to_keep") (by simp)
  obtain ⟨x8, h8⟩ := scan_flt h (k := "max_B20_variation_to_keep") (by simp)
  obtain ⟨x9, h9⟩ := scan_flt h (k := "min_r_singularity_to_keep") (by simp)
  obtain ⟨x10, h10⟩ := scan_flt h (k := "max_d2_volume_d_psi2_to_keep") (by simp)
  obtain ⟨x11, h11⟩ := scan_flt h (k := "min_DMerc_times_r2_to_keep") (by simp)
  obtain ⟨x12, h12⟩ := scan_flt h (k := "min_beta_to_keep") (by simp)
  obtain ⟨x13, h13⟩ := scan_int h (k := "max_keep_per_proc") (by simp)
  obtain ⟨x14, h14⟩ := scan_int h (k := "max_attempts_per_proc") (by simp)
  refine ⟨⟨x1, r2, x2, x3, x4, x5, x6, x7, x8, x9, x10, x11, x12, x13, x14⟩, ?_, ?_, rfl⟩
  · unfold cfgOf
    simp only [getBool, getFlt, getInt, h1, h2, h3, h4, h5, h6, h7, h8, h9, h10, h11, h12, h13, h14,
      need, Except.bind]
  · exact ⟨h1, h2, h3, h4, h5, h6, h7, h8, h9, h10, h11, h12, h13, h14⟩

/-! ## The generators stay at their bounds -/

/-- `g` is a later state of a generator with the given distribution. -/
def Gen (u : Nat → ℝ) (name : String) (rg : Range) (g : Rand) : Prop :=
  ∃ l0 det r0, construct l0 det name rg.min rg.max = .ok r0 ∧ Reach u r0 g

theorem Gen.next {u : Nat → ℝ} {name : String} {rg : Range} {g : Rand} (h : Gen u name rg g) :
    Gen u name rg (get u g).2 := by
  obtain ⟨l0, det, r0, h1, h2⟩ := h
  exact ⟨l0, det, r0, h1, .draw h2⟩

theorem Gen.seek {u : Nat → ℝ} {name : String} {rg : Range} {g : Rand} {l0 : ℝ} {det : Bool}
    (n : Int) (h : construct l0 det name rg.min rg.max = .ok g) :
    Gen u name rg (setToNth u n g) := ⟨l0, det, g, h, .seek n .init⟩

theorem Gen.value {u : Nat → ℝ} (hu : ∀ k, 0 ≤ u k ∧ u k ≤ 1) {name : String} {rg : Range}
    {g : Rand} (h : Gen u name rg g) : InRange name rg.min rg.max (get u g).1 := by
  obtain ⟨l0, det, r0, h1, h2⟩ := h
  exact get_in_range hu h1 h2

structure ModeGen (u : Nat → ℝ) (fo : String) (j : Nat) (m : Mode) (g : ModeGens) : Prop where
  R0c : Gen u (if j = 0 ∧ fo = "2 sided log" then "log" else fo) m.R0c g.R0c
  R0s : Gen u fo m.R0s g.R0s
  Z0c : Gen u fo m.Z0c g.Z0c
  Z0s : Gen u fo m.Z0s g.Z0s

structure AllGens (u : Nat → ℝ) (c : Settings) (g : Gens) : Prop where
  etaBar : Gen u c.etaBarOption c.etaBar g.etaBar
  sigma0 : Gen u c.sigma0Option c.sigma0 g.sigma0
  B2c : Gen u c.B2cOption c.B2c g.B2c
  B2s : Gen u c.B2sOption c.B2s g.B2s
  p2 : Gen u c.p2Option c.p2 g.p2
  len : g.modes.length = c.modes.length
  modes : ∀ j m k, c.modes[j]? = some m → g.modes[j]? = some k → ModeGen u c.fourierOption j m k

theorem allModes_gens {l0 : ℝ} {u : Nat → ℝ} {c : Settings} {rank : Nat} (ms : List Mode) :
    ∀ (i : Nat) (gs : List ModeGens), allModes l0 u c rank i ms = .ok gs →
      gs.length = ms.length ∧ ∀ j m k, ms[j]? = some m → gs[j]? = some k →
        ModeGen u c.fourierOption (i + j) m k := by
  induction ms with
  | nil =>
    intro i gs h
    simp only [allModes, Except.ok.injEq] at h
    subst h
    simp
  | cons m ms ih =>
    intro i gs h
    rw [allModes] at h
    obtain ⟨g, h1, h⟩ := ok_bind h
    obtain ⟨gs', h2, h⟩ := ok_bind h
    injection h with h
    subst h
    obtain ⟨k1, k2⟩ := ih (i + 1) gs' h2
    refine ⟨by simp [k1], fun j m' k hm hk => ?_⟩
    cases j with
    | zero =>
      simp only [List.getElem?_cons_zero, Option.some.injEq] at hm hk
      subst hm hk
      unfold modeGens at h1
      obtain ⟨a, e1, h1⟩ := ok_bind h1
      obtain ⟨b, e2, h1⟩ := ok_bind h1
      obtain ⟨d, e3, h1⟩ := ok_bind h1
      obtain ⟨e, e4, h1⟩ := ok_bind h1
      injection h1 with h1
      subst h1
      exact ⟨.seek _ e1, .seek _ e2, .seek _ e3, .seek _ e4⟩
    | succ j =>
      have := k2 j m' k (by simpa using hm) (by simpa using hk)
      rwa [show i + 1 + j = i + (j + 1) by omega] at this

theorem start_gens {l0 : ℝ} {u : Nat → ℝ} {c : Settings} {rank : Nat} {g : Gens}
    (h : start l0 u c rank = .ok g) : AllGens u c g := by
  unfold start at h
  obtain ⟨a, h1, h⟩ := ok_bind h
  obtain ⟨b, h2, h⟩ := ok_bind h
  obtain ⟨d, h3, h⟩ := ok_bind h
  obtain ⟨e, h4, h⟩ := ok_bind h
  obtain ⟨f, h5, h⟩ := ok_bind h
  obtain ⟨ms, h6, h⟩ := ok_bind h
  injection h with h
  subst h
  obtain ⟨k1, k2⟩ := allModes_gens _ _ _ h6
  exact ⟨.seek _ h1, .seek _ h2, .seek _ h3, .seek _ h4, .seek _ h5, k1, fun j m k hm hk => by
    have := k2 j m k hm hk
    rwa [Nat.zero_add] at this⟩

theorem AllGens.next {u : Nat → ℝ} {c : Settings} {g : Gens} (b : Bool) (h : AllGens u c g) :
    AllGens u c (draw u { c with r2 := b } g).2 where
  etaBar := h.etaBar.next
  sigma0 := h.sigma0.next
  B2c := by cases b; exact h.B2c; exact h.B2c.next
  B2s := by cases b; exact h.B2s; exact h.B2s.next
  p2 := by cases b; exact h.p2; exact h.p2.next
  len := by simpa [draw] using h.len
  modes j m k hm hk := by
    simp only [draw, List.getElem?_map, Option.map_eq_some_iff] at hk
    obtain ⟨k', hk', rfl⟩ := hk
    obtain ⟨a1, a2, a3, a4⟩ := h.modes j m k' hm hk'
    exact ⟨a1.next, a2.next, a3.next, a4.next⟩

/-- One attempt draws inside the bounds. -/
theorem draw_inBounds {u : Nat → ℝ} (hu : ∀ k, 0 ≤ u k ∧ u k ≤ 1) {r : ScanObj ℝ} {n : Nat}
    {c : Settings} (hs : IsSettings r n c) {g : Gens} (h : AllGens u c g) (b : Bool)
    (hb : b = true ↔ r.q.order_r_option ≠ "r1") :
    InBounds r.mem r.q n (draw u { c with r2 := b } g).1 := by
  have hlen : c.modes.length = n := by
    have := hs.modes.length_eq
    simpa using this.symm
  have hmode : ∀ (name lo hi : String) (sel : ModeGens → Rand) (rg : Mode → Range),
      name ++ "_min" = lo → name ++ "_max" = hi →
      (∀ j m, IsMode r.mem j m → IsRangeAt r.mem lo hi j (rg m)) →
      (∀ j m k, ModeGen u c.fourierOption j m k → Gen u
        (if name = "R0c" ∧ j = 0 ∧ c.fourierOption = "2 sided log" then "log" else c.fourierOption)
        (rg m) (sel k)) →
      (g.modes.map fun m => (get u (sel m)).1).length = n ∧
      ∀ j y, (g.modes.map fun m => (get u (sel m)).1)[j]? = some y →
        ModeRange r.mem name j fun s a b => InRange s a b y := by
    intro name lo hi sel rg e1 e2 h1 h2
    refine ⟨by simp [h.len, hlen], fun j y hy => ?_⟩
    simp only [List.getElem?_map, Option.map_eq_some_iff] at hy
    obtain ⟨k, hk, rfl⟩ := hy
    have hj : j < c.modes.length := by
      rw [← h.len]
      exact (List.getElem?_eq_some_iff.1 hk).1
    have hm := List.getElem?_eq_getElem hj
    have him : IsMode r.mem j c.modes[j] := by
      have := List.forall₂_iff_get.1 hs.modes
      have h3 := this.2 j (by simpa [hlen] using hj) hj
      simpa using h3
    obtain ⟨la, lb, i1, i2, i3, i4⟩ := h1 j _ him
    refine ⟨c.fourierOption, la, lb, _, _, hs.fourierOption, e1 ▸ i1, e2 ▸ i2, i3, i4, ?_⟩
    exact (h2 j _ k (h.modes j _ k hm hk)).value hu
  refine ⟨?_, ?_, ?_, ?_⟩
  · intro x hx
    simp only [List.mem_cons, List.not_mem_nil, or_false] at hx
    rcases hx with rfl | rfl
    · exact ⟨_, _, _, hs.etaBarOption, hs.etaBar.1, hs.etaBar.2, h.etaBar.value hu⟩
    · exact ⟨_, _, _, hs.sigma0Option, hs.sigma0.1, hs.sigma0.2, h.sigma0.value hu⟩
  · intro hr x hx
    have hb' : b = true := hb.2 hr
    subst hb'
    simp only [List.mem_cons, List.not_mem_nil, or_false] at hx
    rcases hx with rfl | rfl | rfl
    · exact ⟨_, _, _, hs.B2cOption, hs.B2c.1, hs.B2c.2, h.B2c.value hu⟩
    · exact ⟨_, _, _, hs.B2sOption, hs.B2s.1, hs.B2s.2, h.B2s.value hu⟩
    · exact ⟨_, _, _, hs.p2Option, hs.p2.1, hs.p2.2, h.p2.value hu⟩
  · intro hr
    have hb' : b = false := by
      cases b
      · rfl
      · exact absurd hr (hb.1 rfl)
    subst hb'
    exact hs.old
  · intro x hx
    simp only [List.mem_cons, List.not_mem_nil, or_false] at hx
    rcases hx with rfl | rfl | rfl | rfl
    · exact hmode "R0c" _ _ ModeGens.R0c Mode.R0c rfl rfl (fun _ _ h => h.R0c)
        (fun _ _ _ h => by simpa using h.R0c)
    · exact hmode "R0s" _ _ ModeGens.R0s Mode.R0s rfl rfl (fun _ _ h => h.R0s)
        (fun _ _ _ h => by simpa using h.R0s)
    · exact hmode "Z0c" _ _ ModeGens.Z0c Mode.Z0c rfl rfl (fun _ _ h => h.Z0c)
        (fun _ _ _ h => by simpa using h.Z0c)
    · exact hmode "Z0s" _ _ ModeGens.Z0s Mode.Z0s rfl rfl (fun _ _ h => h.Z0s)
        (fun _ _ _ h => by simpa using h.Z0s)

theorem drawsFrom_inBounds {u : Nat → ℝ} (hu : ∀ k, 0 ≤ u k ∧ u k ≤ 1) {r : ScanObj ℝ} {n : Nat}
    {c : Settings} (hs : IsSettings r n c) (b : Bool) (hb : b = true ↔ r.q.order_r_option ≠ "r1")
    (k : Nat) : ∀ {g : Gens}, AllGens u c g →
      ∀ d ∈ drawsFrom u { c with r2 := b } k g, InBounds r.mem r.q n d := by
  induction k with
  | zero => intro g _ d hd; cases hd
  | succ k ih =>
    intro g h d hd
    rw [drawsFrom, List.mem_cons] at hd
    rcases hd with rfl | hd
    · exact draw_inBounds hu hs h b hb
    · exact ih (h.next b) d hd

theorem drawsFrom_length (u : Nat → ℝ) (c : Settings) (k : Nat) : ∀ g, (drawsFrom u c k g).length = k := by
  induction k with
  | zero => intro g; rfl
  | succ k ih => intro g; simp [drawsFrom, ih]

/-! ## The thresholds -/

theorem passes_meets {o : Obj ℝ} {cfg : Scan.Cfg ℝ} (h : IsCfg o cfg) {order : String}
    (hr : cfg.r2 = true ↔ order ≠ "r1") (c : Scan.Cand ℝ) :
    Spec.Scan.Passes realOps cfg c = true ↔ Meets o order c := by
  have e : realOps = Scan.exactOps ℝ := rfl
  rw [e, Scan.passes_iff]
  constructor
  · rintro ⟨h1, h2, h3⟩
    have hk : o "keep_all" = some (.bool false) → cfg.keepAll = false := by
      intro hk; rw [h.keepAll] at hk; simpa using hk
    refine ⟨h1, h2, fun k => ?_, fun k => ?_, fun k => ?_, fun k r => ?_, fun k r => ?_⟩ <;>
      rw [hk k] at h3 <;>
      simp only [Bool.false_eq_true, false_or] at h3 <;>
      obtain ⟨a1, a2, a3, a4, a5, a6, a7, a8⟩ := h3
    · rw [h.helicityToKeep]
      simp only [Option.some.injEq, Val.int.injEq]
      exact ⟨a2, a3⟩
    · simp [lower, h.minR0, h.minIota, h.minLGradB]
      simp at a4
      exact ⟨a1, a5, a7, a4⟩
    · simpa [upper, h.maxElongation] using a6
    · obtain ⟨b1, b2, b3, b4, b5, b6⟩ := a8 (hr.2 r)
      simp [lower2, h.minLGradGradB, h.minRSingularity, h.minDMerc, h.minBeta]
      exact ⟨b4, b5, b3, b6⟩
    · obtain ⟨b1, b2, b3, b4, b5, b6⟩ := a8 (hr.2 r)
      simp [upper2, h.maxB20Variation, h.maxD2Volume]
      exact ⟨b1, b2⟩
  · intro m
    refine ⟨m.radius0, m.radiusHalf, ?_⟩
    cases hk : cfg.keepAll with
    | true => exact Or.inl rfl
    | false =>
      right
      have hk' : o "keep_all" = some (.bool false) := by rw [h.keepAll, hk]
      have m1 := m.helicity hk'
      have m2 := m.lower hk'
      have m3 := m.upper hk'
      simp only [h.helicityToKeep, Option.some.injEq, Val.int.injEq] at m1
      simp only [lower, upper, List.mem_cons, List.not_mem_nil, or_false, forall_eq_or_imp,
        forall_eq, h.minR0, h.minIota, h.minLGradB, h.maxElongation, Option.some.injEq,
        Val.flt.injEq, forall_eq'] at m2 m3
      refine ⟨m2.1, m1.1, m1.2, m2.2.2.2, m2.2.1, m3, m2.2.2.1, fun r => ?_⟩
      have m4 := m.lower2 hk' (hr.1 r)
      have m5 := m.upper2 hk' (hr.1 r)
      simp only [lower2, upper2, List.mem_cons, List.not_mem_nil, or_false, forall_eq_or_imp,
        forall_eq, h.minLGradGradB, h.minRSingularity, h.minDMerc, h.minBeta, h.maxB20Variation,
        h.maxD2Volume, Option.some.injEq, Val.flt.injEq, forall_eq'] at m4 m5
      exact ⟨m5.1, m5.2, m4.2.2.1, m4.1, m4.2.1, m4.2.2.2⟩

end Qsc.ScanPipeline
