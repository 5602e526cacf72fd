import Verif.Model.Random
import Verif.Spec.Random
import Mathlib.Tactic.Ring
import Mathlib.Tactic.Linarith
import Mathlib.Tactic.FieldSimp
import Mathlib.NumberTheory.Real.GoldenRatio

/-! Helper lemmas for `Verif.Props.Random`. -/

namespace Qsc.Random
open Qsc.Spec.Random

theorem gamma_eq : gamma = Real.goldenRatio := rfl

theorem gamma_pos : 0 < gamma := by rw [gamma_eq]; exact Real.goldenRatio_pos

theorem fmod1_nonneg {x : ℝ} (h : 0 ≤ x) : fmod1 x = Int.fract x := by
  unfold fmod1; rw [if_pos h]; rfl

/-- What the constructor stores, for every accepted call. -/
theorem construct_fields {l0 : ℝ} {det : Bool} {name : String} {a b : ℝ} {r : Rand}
    (h : construct l0 det name a b = .ok r) :
    r.min = a ∧ r.max = b ∧ r.deterministic = det ∧ r.last = 0 ∧ r.pos = 0 ∧
      r.logmin = clog l0 |a| ∧ r.logmax = clog l0 |b| ∧ r.sign = (if b < 0 then -1 else 1) ∧
      ((name = "linear" ∧ r.distrib = .linear) ∨ (name = "log" ∧ r.distrib = .log) ∨
        (name = "2 sided log" ∧ r.distrib = .twoSidedLog)) := by
  unfold construct at h
  dsimp only at h
  split at h
  · cases h; simp [*]
  · split at h
    · split at h
      · cases h
      · split at h
        · cases h
        · cases h; simp [*]
    · split at h
      · split at h
        · cases h; simp [*]
        · split at h
          · cases h
          · cases h; simp [*]
      · cases h

theorem acceptable_iff (l0 : ℝ) (det : Bool) (name : String) (a b : ℝ) :
    (∃ r, construct l0 det name a b = .ok r) ↔ Acceptable name a b := by
  unfold construct Acceptable
  dsimp only
  by_cases h1 : name = "linear"
  · simp [h1]
  rw [if_neg h1]
  by_cases h2 : name = "log"
  · rw [if_pos h2]
    subst h2
    simp only [String.reduceEq, false_or, true_and, false_and, or_false]
    split
    · rename_i h
      constructor
      · rintro ⟨r, hr⟩; cases hr
      · rintro (⟨ha, hb⟩ | ⟨ha, hb⟩ | ⟨ha, hb⟩)
        · nlinarith
        · nlinarith
        · subst ha hb; simp at h
    · rename_i h
      split
      · rename_i hz
        constructor
        · rintro ⟨r, hr⟩; cases hr
        · rintro (⟨ha, hb⟩ | ⟨ha, hb⟩ | ⟨ha, hb⟩)
          · rcases hz with ⟨_, h | h⟩ <;> linarith
          · rcases hz with ⟨_, h | h⟩ <;> linarith
          · exact absurd (hb.trans ha.symm) hz.1
      · rename_i hz
        refine ⟨fun _ => ?_, fun _ => ⟨_, rfl⟩⟩
        by_cases hab : b = a
        · subst hab
          rcases lt_trichotomy b 0 with h' | h' | h'
          · exact .inr (.inl ⟨h', h'⟩)
          · exact .inr (.inr ⟨h', h'⟩)
          · exact .inl ⟨h', h'⟩
        · have hz' : b ≠ 0 ∧ a ≠ 0 := by
            constructor <;> intro h0 <;> exact hz ⟨hab, by simp [h0]⟩
          rcases lt_or_gt_of_ne hz'.1 with hb | hb <;> rcases lt_or_gt_of_ne hz'.2 with ha | ha
          · exact .inr (.inl ⟨ha, hb⟩)
          · exact absurd (mul_neg_of_neg_of_pos hb ha) h
          · exact absurd (mul_neg_of_pos_of_neg hb ha) h
          · exact .inl ⟨ha, hb⟩
  rw [if_neg h2]
  by_cases h3 : name = "2 sided log"
  · rw [if_pos h3]
    subst h3
    simp only [String.reduceEq, false_or, true_and, false_and]
    split
    · rename_i h; exact ⟨fun _ => .inr h, fun _ => ⟨_, rfl⟩⟩
    · rename_i h
      split
      · rename_i hz
        constructor
        · rintro ⟨r, hr⟩; cases hr
        · rintro (⟨ha, hb⟩ | h')
          · rcases hz with h | h <;> linarith
          · exact absurd h' h
      · rename_i hz
        rw [not_or, not_le, not_le] at hz
        exact ⟨fun _ => .inl hz, fun _ => ⟨_, rfl⟩⟩
  · rw [if_neg h3]
    simp [h1, h2, h3]

/-- Exponential of interpolated logarithms is geometric interpolation. -/
theorem exp_interp {a b : ℝ} (ha : 0 < a) (hb : 0 < b) (t : ℝ) :
    Real.exp (Real.log a + (Real.log b - Real.log a) * t) = gerp a b t := by
  unfold gerp
  rw [Real.rpow_def_of_pos ha, Real.rpow_def_of_pos hb, ← Real.exp_add]
  congr 1; ring

theorem clog_pos {l0 x : ℝ} (h : 0 < x) : clog l0 x = Real.log x := by
  unfold clog; rw [if_neg h.ne']

/-- The mapping stage equals the specification for accepted, non-degenerate bounds. -/
theorem mapValue_eq {l0 : ℝ} {det : Bool} {name : String} {a b : ℝ} {r : Rand}
    (h : construct l0 det name a b = .ok r) (hne : a ≠ b) (t : ℝ) :
    mapValue r t = value name a b t := by
  have hacc := (acceptable_iff l0 det name a b).mp ⟨r, h⟩
  obtain ⟨e1, e2, _, _, _, e6, e7, e8, hn⟩ := construct_fields h
  unfold mapValue value
  rcases hn with ⟨hn, hd⟩ | ⟨hn, hd⟩ | ⟨hn, hd⟩
  · rw [hd]; subst hn
    simp only [if_pos, lerp, e1, e2]; ring
  · rw [hd]; subst hn
    simp only [Acceptable, String.reduceEq, false_or, true_and, false_and, or_false] at hacc
    simp only [String.reduceEq, if_false, if_true, e6, e7, e8]
    rcases hacc with ⟨ha, hb⟩ | ⟨ha, hb⟩ | ⟨ha, hb⟩
    · rw [abs_of_pos ha, abs_of_pos hb, clog_pos ha, clog_pos hb, exp_interp ha hb,
        if_neg (by linarith), if_pos ha, one_mul]
    · rw [abs_of_neg ha, abs_of_neg hb, clog_pos (by linarith), clog_pos (by linarith),
        exp_interp (by linarith) (by linarith), if_pos hb, if_neg (by linarith), neg_one_mul]
    · exact absurd (ha.trans hb.symm) hne
  · rw [hd]; subst hn
    simp only [Acceptable, String.reduceEq, false_or, true_and, false_and] at hacc
    simp only [String.reduceEq, if_false, e6, e7]
    rcases hacc with ⟨ha, hb⟩ | ⟨ha, hb⟩
    · rw [abs_of_pos ha, abs_of_pos hb, clog_pos ha, clog_pos hb, exp_interp ha hb]
      by_cases ht : t ≤ 1 / 2
      · rw [if_neg (by linarith), if_pos ht, abs_of_nonpos (by linarith)]
        congr 1; ring
      · rw [if_pos (by linarith), if_neg ht, abs_of_nonneg (by linarith)]
        congr 2; ring
    · exact absurd (ha.trans hb.symm) hne

theorem between_lerp {a b t : ℝ} (h0 : 0 ≤ t) (h1 : t ≤ 1) : Between a b (lerp a b t) := by
  unfold Between lerp
  rcases le_total a b with h | h
  · left; constructor <;> nlinarith
  · right; constructor <;> nlinarith

theorem gerp_le {a b t : ℝ} (ha : 0 < a) (hab : a ≤ b) (h0 : 0 ≤ t) (h1 : t ≤ 1) :
    a ≤ gerp a b t ∧ gerp a b t ≤ b := by
  have hb : 0 < b := by linarith
  have hla : Real.log a ≤ Real.log b := Real.log_le_log ha hab
  rw [← exp_interp ha hb]
  constructor
  · calc a = Real.exp (Real.log a) := (Real.exp_log ha).symm
      _ ≤ _ := Real.exp_le_exp.mpr (by nlinarith)
  · calc _ ≤ Real.exp (Real.log b) := Real.exp_le_exp.mpr (by nlinarith)
      _ = b := Real.exp_log hb

theorem gerp_swap (a b t : ℝ) : gerp a b t = gerp b a (1 - t) := by
  unfold gerp; rw [sub_sub_cancel, mul_comm]

theorem between_gerp {a b t : ℝ} (ha : 0 < a) (hb : 0 < b) (h0 : 0 ≤ t) (h1 : t ≤ 1) :
    Between a b (gerp a b t) := by
  rcases le_total a b with h | h
  · exact .inl (gerp_le ha h h0 h1)
  · right
    rw [gerp_swap]
    exact gerp_le hb h (by linarith) (by linarith)

theorem gerp_pos {a b : ℝ} (ha : 0 < a) (hb : 0 < b) (t : ℝ) : 0 < gerp a b t :=
  mul_pos (Real.rpow_pos_of_pos ha _) (Real.rpow_pos_of_pos hb _)

/-- One call never changes the parameters of the distribution. -/
theorem get_frame (u : Nat → ℝ) (r : Rand) :
    ∃ l p, (get u r).2 = { r with last := l, pos := p } := by
  unfold get
  split
  · exact ⟨r.last, r.pos, rfl⟩
  · split
    · exact ⟨_, r.pos, rfl⟩
    · exact ⟨r.last, _, rfl⟩

theorem mapValue_frame (r : Rand) (l : ℝ) (p : Nat) (t : ℝ) :
    mapValue { r with last := l, pos := p } t = mapValue r t := rfl

/-- Position of the deterministic sequence after `n` draws from any state. -/
theorem draws_det (u : Nat → ℝ) (r : Rand) (hd : r.deterministic = true) (hne : r.max ≠ r.min)
    (hl : 0 ≤ r.last) (n : Nat) :
    forLoop n (fun _ r => (get u r).2) r
      = { r with last := if n = 0 then r.last else Int.fract (r.last + n * gamma) } := by
  induction n with
  | zero => simp
  | succ n ih =>
    rw [forLoop_succ, ih]
    have hg := gamma_pos
    unfold get
    simp only [if_neg hne, hd, if_true, Nat.succ_ne_zero, if_false]
    congr 1
    split
    · rename_i h0
      subst h0
      rw [fmod1_nonneg (by positivity)]; congr 1; push_cast; ring
    · rw [fmod1_nonneg (add_nonneg (Int.fract_nonneg _) hg.le), Int.fract_eq_fract]
      refine ⟨-⌊r.last + n * gamma⌋, ?_⟩
      have := Int.self_sub_floor (r.last + n * gamma)
      rw [← this]; push_cast; ring

theorem draws_degenerate (u : Nat → ℝ) (r : Rand) (h : r.max = r.min) (n : Nat) :
    forLoop n (fun _ r => (get u r).2) r = r := by
  induction n with
  | zero => rfl
  | succ n ih => rw [forLoop_succ, ih]; unfold get; rw [if_pos h]

theorem draws_nondet (u : Nat → ℝ) (r : Rand) (hd : r.deterministic = false)
    (hne : r.max ≠ r.min) (n : Nat) :
    forLoop n (fun _ r => (get u r).2) r = { r with pos := r.pos + n } := by
  induction n with
  | zero => rfl
  | succ n ih =>
    rw [forLoop_succ, ih]
    unfold get
    simp only [if_neg hne, hd, Bool.false_eq_true, if_false]
    rfl

/-- `set_to_nth` in deterministic mode. -/
theorem setToNth_det (u : Nat → ℝ) (r : Rand) (hd : r.deterministic = true)
    (hne : r.max ≠ r.min) (n : Int) :
    setToNth u n r = { r with last := Int.fract (n.toNat * gamma) } := by
  unfold setToNth
  rw [draws_det u { r with last := 0 } hd hne le_rfl]
  simp only [zero_add]
  congr 1
  split
  · rename_i h; rw [h]; simp
  · rfl

end Qsc.Random
