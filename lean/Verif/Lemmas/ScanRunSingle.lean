import Verif.Lemmas.ScanRun
import Verif.Spec.ScanRun
import Verif.Props.SingleAxis
import Verif.Props.OptRun

/-!
Helper lemmas for `Verif.Props.ScanRun`: single runs for what was drawn.
-/

namespace Qsc.ScanRun

open Qsc.Netcdf Qsc.Output Qsc.Toml
open Qsc.Single (Lib Result Vars flags final calculate_done validate_order validate_ok)
open Qsc.Scan (Cand Cfg Local Counter bump save)
open Qsc.ScanPipeline (Proc)
open Qsc.ScanDraws (Drawn)
open Qsc.Spec.Scan Qsc.Spec.Single Qsc.Spec.ScanRun Qsc.Spec.ScanPipeline

theorem configuration_eq (q : QscIn ℝ) (d : Drawn) (n : Nat) : Spec.ScanRun.configuration q d n = atDraw q d n := rfl

section
variable {L : Lib ℝ} {q : QscIn ℝ} {d : Drawn} {n rows : Nat} {ord : Setup.Order} {r : Result ℝ} {c0 : Cand ℝ}

/-- The arrays of a draw have the same length. -/
def Sized (rows : Nat) (d : Drawn) : Prop :=
  d.R0c.length = rows ∧ d.R0s.length = rows ∧ d.Z0c.length = rows ∧ d.Z0s.length = rows

theorem single_of_calculate (hl : Literals L.lit) (hv : Setup.validate q.order_r_option = .ok ord) (hodd : n % 2 = 1)
    (hs : Sized rows d) (hr : 0 < rows) (hn : 0 < q.nfp) (hc : Single.calculate L (atDraw q d n) n ord = .ok r)
    (m0 : Mem ℝ) {path name : List Char} (hp : Outfile.outfile path = .ok name) {file : Sections.File ℝ}
    (hf : Spec.Sections.WellFormed file) (hi : Input L.single file (atDraw q d n)) :
    ∃ f, Single.run L m0 path file = .ok (name, r, f) ∧ Vars L.ops (atDraw q d n) ord n r f := by
  obtain ⟨h0, h1, h2, h3⟩ := hs
  have hd := calculate_done (validate_order hv) hc
  have hi := (Single.input_iff hl L.single hf _).2 hi
  obtain ⟨f, w1, -⟩ := Single.file_complete L.toF L.ops m0 (atDraw q d n) ord n r hd (validate_ok hv).1 (ax := rows) h0 h1 h2
    h3 (by omega) hr
  refine ⟨f, ?_, Single.file_vars (q := atDraw q d n) hd (validate_ok hv).1 (ax := rows) h0 h1 h2 h3 (by omega) hr w1⟩
  rw [Single.run_eq (q := atDraw q d n) L m0 hp hi (ord := ord) hv (n := n) (by change (0 : Int) ≤ (n : Int); omega) ?_ hn]
  · simp only [hc, w1]
  · change (n : Int) = if (n : Int) % 2 = 0 then (n : Int) + 1 else n
    rw [if_neg (by omega)]

/-- What a single run says. -/
theorem says_report {f : Netcdf.File ℝ} (hv : Setup.validate q.order_r_option = .ok ord)
    (hc : Single.calculate L (atDraw q d n) n ord = .ok r)
    (h : Vars L.ops (atDraw q d n) ord n r f) : Says f q.order_r_option d (report L.ops c0 d r) := by
  have hd := calculate_done (validate_order hv) hc
  obtain ⟨h1, h2⟩ := hd
  have s1 := h.s1
  have hel := h.hel
  have s2 := h.s2
  simp only [Single.scalars1, List.mem_cons, List.not_mem_nil, or_false, forall_eq_or_imp, forall_eq] at s1
  obtain ⟨-, -, -, -, -, a1, a2, a3, -, -, -, a4, a5, a6, -, a7, -, a8⟩ := s1
  unfold report
  cases hx : r.second with
  | none =>
    refine ⟨⟨rfl, rfl, rfl, rfl, rfl⟩, ⟨rfl, rfl, rfl, rfl⟩, hel, ?_, ?_⟩
    · simp only [List.mem_cons, List.not_mem_nil, or_false, forall_eq_or_imp, forall_eq]
      exact ⟨a2, a1, a3, a6, a7, a8, a4, a5⟩
    · intro ho
      have h3 := h2.1
      unfold Single.isSecond at h3
      rw [hx] at h3
      rcases (validate_ok hv).2 with ⟨e, -⟩ | ⟨-, rfl⟩ | ⟨-, rfl⟩
      · exact absurd e ho
      · exact absurd h3 (by simp)
      · exact absurd h3 (by simp)
  | some x =>
    refine ⟨⟨rfl, rfl, rfl, rfl, rfl⟩, ⟨rfl, rfl, rfl, rfl⟩, hel, ?_, ?_⟩
    · simp only [List.mem_cons, List.not_mem_nil, or_false, forall_eq_or_imp, forall_eq]
      exact ⟨a2, a1, a3, a6, a7, a8, a4, a5⟩
    · intro ho
      have s2 := s2 x hx
      simp only [Single.scalars2, List.mem_cons, List.not_mem_nil, or_false, forall_eq_or_imp, forall_eq] at s2
      obtain ⟨-, -, -, b1, b2, b3, -, -, b4, b5, b6, b7, -⟩ := s2
      simp only [List.mem_cons, List.not_mem_nil, or_false, forall_eq_or_imp, forall_eq]
      exact ⟨b5, b6, b3, b4, b2, b1, b7⟩

/-- A configuration that can be calculated. -/
theorem computes_of (hl : Literals L.lit) (hv : Setup.validate q.order_r_option = .ok ord) (hodd : n % 2 = 1)
    (hs : Sized rows d) (hr : 0 < rows) (hn : 0 < q.nfp) (hc : Single.calculate L (atDraw q d n) n ord = .ok r) :
    Computes L (Spec.ScanRun.configuration q d n) d (report L.ops c0 d r) := by
  rw [configuration_eq]
  refine ⟨?_, ?_⟩
  · exact OptRun.describable L.single (atDraw q d n) hs.1 hs.2.1 hs.2.2.1 hs.2.2.2
  · intro m0 path name file hp hf hi
    obtain ⟨f, h1, h2⟩ := single_of_calculate hl hv hodd hs hr hn hc m0 hp hf hi
    exact ⟨r, f, h1, says_report hv hc h2⟩

/-- The recorded quantities that single runs give are the same. -/
structure Agree (order : String) (c c' : Cand ℝ) : Prop where
  r0c : c.R0c = c'.R0c
  helicity : c.helicity = c'.helicity
  minR0 : c.gridMinR0 = c'.gridMinR0
  curvature : c.gridMaxCurvature = c'.gridMaxCurvature
  iota : c.iota = c'.iota
  elongation : c.gridMaxElongation = c'.gridMaxElongation
  lGradB : c.gridMinLGradB = c'.gridMinLGradB
  second : order ≠ "r1" → SameSecond c c'

theorem Agree.meets {o : Sections.Obj ℝ} {order : String} {c c' : Cand ℝ} (h : Agree order c c')
    (hm : Meets o order c) : Meets o order c' := by
  obtain ⟨m1, m2, m3, m4, m5, m6, m7⟩ := hm
  refine ⟨?_, ?_, ?_, ?_, ?_, ?_, ?_⟩
  · rw [← h.r0c]; exact m1
  · rw [← h.r0c]; exact m2
  · rw [← h.helicity]; exact m3
  · unfold Spec.ScanPipeline.lower at m4 ⊢
    rw [← h.minR0, ← h.iota, ← h.lGradB, ← h.curvature]; exact m4
  · unfold Spec.ScanPipeline.upper at m5 ⊢
    rw [← h.elongation]; exact m5
  · intro h1 h2
    obtain ⟨e1, e2, e3, e4, e5, e6, e7⟩ := h.second h2
    unfold Spec.ScanPipeline.lower2 at m6 ⊢
    rw [← e4, ← e5, ← e6, ← e7]; exact m6 h1 h2
  · intro h1 h2
    obtain ⟨e1, e2, e3, e4, e5, e6, e7⟩ := h.second h2
    unfold Spec.ScanPipeline.upper2 at m7 ⊢
    rw [← e1, ← e3]; exact m7 h1 h2

/-- What a single run computes was calculated. -/
theorem calculate_of (ho : L.ops = Qsc.realOps) (hl : Literals L.lit) (hv : Setup.validate q.order_r_option = .ok ord)
    (hodd : n % 2 = 1) (hs : Sized rows d) (hr : 0 < rows) (hn : 0 < q.nfp) {c : Cand ℝ} (c0 : Cand ℝ)
    (h : Computes L (Spec.ScanRun.configuration q d n) d c) :
    ∃ r, Single.calculate L (atDraw q d n) n ord = .ok r ∧ Agree q.order_r_option c (report L.ops c0 d r) := by
  rw [configuration_eq] at h
  obtain ⟨⟨file, hf, hi⟩, hx⟩ := h
  have hp : Outfile.outfile "qsc_in.x".toList = .ok "qsc_out.x.nc".toList := by decide +kernel
  obtain ⟨r, f, hrun, hsays⟩ := hx (fun _ => .ints []) _ _ file hp hf hi
  obtain ⟨q', ord', n', -, u2, u3, -, u5, -, u7, -⟩ := Single.unpack hrun
  have hi' := (Single.input_iff hl L.single hf _).2 hi
  rw [hi'] at u2
  injection u2 with u2
  subst u2
  have eo : ord' = ord := by
    have := u3.symm.trans hv
    injection this
  subst eo
  have en : n' = n := by
    have : (n' : Int) = if (n : Int) % 2 = 0 then (n : Int) + 1 else n := u5
    rw [if_neg (by omega)] at this
    omega
  subst en
  obtain ⟨f', h1, h2⟩ := single_of_calculate hl hv hodd hs hr hn u7 (fun _ => .ints []) hp hf hi
  have e := h1.symm.trans hrun
  injection e with e
  injection e with e1 e2
  injection e2 with e2 e3
  subst e3
  refine ⟨r, u7, ?_⟩
  have S := says_report (c0 := c0) hv u7 h2
  have uq : ∀ {a : String} {x y : ℝ}, Scalar f' a x → Scalar f' a y → x = y := by
    intro a x y hx hy
    have := (Single.output_unique ho hl hf hrun hx hy).2
    injection this with this
    injection this
  have f1 := hsays.first
  have f2 := S.first
  simp only [List.mem_cons, List.not_mem_nil, or_false, forall_eq_or_imp, forall_eq] at f1 f2
  refine ⟨hsays.axis.1.trans S.axis.1.symm, ?_, uq f1.2.1 f2.2.1, uq f1.2.2.1 f2.2.2.1, uq f1.2.2.2.1 f2.2.2.2.1,
    uq f1.2.2.2.2.1 f2.2.2.2.2.1, uq f1.2.2.2.2.2.1 f2.2.2.2.2.2.1, fun ho => ?_⟩
  · have := (Single.output_unique ho hl hf hrun hsays.helicity S.helicity).2
    injection this with this
    injection this
  · have g1 := hsays.second ho
    have g2 := S.second ho
    simp only [List.mem_cons, List.not_mem_nil, or_false, forall_eq_or_imp, forall_eq] at g1 g2
    exact ⟨uq g1.2.2.2.2.1 g2.2.2.2.2.1, uq g1.2.2.2.2.2.1 g2.2.2.2.2.2.1, uq g1.2.2.1 g2.2.2.1,
      uq g1.2.2.2.1 g2.2.2.2.1, uq g1.1 g2.1, uq g1.2.1 g2.2.1, uq g1.2.2.2.2.2.2 g2.2.2.2.2.2.2⟩

end

/-- For what was attempted: to be kept, by single runs, is to pass. -/
theorem keep_iff {e : Env} {c0 : Cand ℝ} {d : Drawn} {rows : Nat} {ord : Setup.Order} {s s' : Local ℝ} {m m' : Members}
    {o : Sections.Obj ℝ} (ho : e.L.ops = Qsc.realOps) (hl : Literals e.L.lit)
    (hv : Setup.validate e.q.order_r_option = .ok ord) (hor : ord.atLeastR2 = e.cfg.r2) (hodd : e.n % 2 = 1)
    (hs : Sized rows d) (hr : 0 < rows) (hn : 0 < e.q.nfp) (hm : Clean e.n m.matrix)
    (h : attempt e d s m = .ok (s', m'))
    (hp : ∀ c, Passes ScanPipeline.realOps e.cfg c = true ↔ Meets o e.q.order_r_option c) :
    (Keep e.L o e.q e.n d ↔ Passes ScanPipeline.realOps e.cfg (candOf e c0 d) = true) ∧
    (Keep e.L o e.q e.n d → Computes e.L (Spec.ScanRun.configuration e.q d e.n) d (candOf e c0 d)) := by
  have fwd : Keep e.L o e.q e.n d → Passes ScanPipeline.realOps e.cfg (candOf e c0 d) = true ∧
      Computes e.L (Spec.ScanRun.configuration e.q d e.n) d (candOf e c0 d) := by
    rintro ⟨c, h1, h2⟩
    obtain ⟨r, h3, h4⟩ := calculate_of ho hl hv hodd hs hr hn c0 h1
    rw [(calculate_report (c0 := c0) hor h3).1]
    exact ⟨(hp _).2 (h4.meets h2), computes_of hl hv hodd hs hr hn h3⟩
  refine ⟨⟨fun hk => (fwd hk).1, fun hk => ?_⟩, fun hk => (fwd hk).2⟩
  obtain ⟨r, hc⟩ := attempt_calculated (ord := ord) hor hm h hk
  refine ⟨candOf e c0 d, ?_, (hp _).1 hk⟩
  rw [(calculate_report (c0 := c0) hor hc).1]
  exact computes_of hl hv hodd hs hr hn hc

end Qsc.ScanRun
