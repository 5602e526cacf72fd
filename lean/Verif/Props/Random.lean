import Verif.Lemmas.Random

/-!
# Properties C08, C09, C10: random distributions
-/

namespace Qsc.Random
open Qsc.Spec.Random

/-- **C08.** The constructor accepts exactly the documented bounds: `linear` always; `log` for
bounds of the same strict sign or both zero; `2 sided log` for both positive or both zero; any
other name is refused. -/
theorem construct_ok_iff (l0 : ℝ) (det : Bool) (name : String) (a b : ℝ) :
    (∃ r, construct l0 det name a b = .ok r) ↔ Acceptable name a b :=
  acceptable_iff l0 det name a b

/-- **C08 (swap).** Exchanging the bounds does not change acceptance. -/
theorem construct_swap (l0 : ℝ) (det : Bool) (name : String) (a b : ℝ) :
    (∃ r, construct l0 det name a b = .ok r) ↔ (∃ r, construct l0 det name b a = .ok r) := by
  rw [acceptable_iff, acceptable_iff]
  unfold Acceptable
  tauto

/-- **C08 (unknown name).** Any other name throws that error and no other. -/
theorem construct_unknown_iff (l0 : ℝ) (det : Bool) (name : String) (a b : ℝ) :
    construct l0 det name a b = .error .unknown
      ↔ name ≠ "linear" ∧ name ≠ "log" ∧ name ≠ "2 sided log" := by
  unfold construct
  dsimp only
  split
  · simp [*]
  · split
    · split
      · simp [*]
      · split <;> simp [*]
    · split
      · split
        · simp [*]
        · split <;> simp [*]
      · simp [*]

/-- Non-vacuity: negative bounds are fine for `log`, refused for `2 sided log`. -/
example : Acceptable "log" (-2) (-1) ∧ ¬ Acceptable "2 sided log" (-2) (-1) := by
  constructor
  · exact .inr (.inl ⟨rfl, .inr (.inl ⟨by norm_num, by norm_num⟩)⟩)
  · rintro (h | ⟨h, _⟩ | ⟨_, h⟩)
    · simp at h
    · simp at h
    · rcases h with h | h <;> norm_num at h

/-- States reachable from a constructed generator by drawing and seeking in any order. -/
inductive Reach (u : Nat → ℝ) (r0 : Rand) : Rand → Prop
  | init : Reach u r0 r0
  | draw {r} : Reach u r0 r → Reach u r0 (get u r).2
  | seek {r} (n : Int) : Reach u r0 r → Reach u r0 (setToNth u n r)

theorem Reach.frame {u : Nat → ℝ} {r0 r : Rand} (h : Reach u r0 r) :
    ∃ l p, r = { r0 with last := l, pos := p } := by
  induction h with
  | init => exact ⟨r0.last, r0.pos, rfl⟩
  | @draw r _ ih =>
    obtain ⟨l, p, hr⟩ := ih
    obtain ⟨l', p', hr'⟩ := get_frame u r
    exact ⟨l', p', by rw [hr', hr]⟩
  | @seek r n _ ih =>
    obtain ⟨l, p, hr⟩ := ih
    unfold setToNth
    generalize n.toNat = k
    induction k with
    | zero => exact ⟨0, p, by rw [hr]; rfl⟩
    | succ k ihk =>
      obtain ⟨l1, p1, h1⟩ := ihk
      rw [forLoop_succ, h1]
      obtain ⟨l', p', hr'⟩ := get_frame u { r0 with last := l1, pos := p1 }
      exact ⟨l', p', by rw [hr']⟩

theorem Reach.last_range {u : Nat → ℝ} {r0 r : Rand} (h : Reach u r0 r)
    (h0 : r0.last = 0) : 0 ≤ r.last ∧ r.last < 1 := by
  have hget : ∀ s : Rand, 0 ≤ s.last ∧ s.last < 1 →
      0 ≤ (get u s).2.last ∧ (get u s).2.last < 1 := by
    intro s hs
    unfold get
    split
    · exact hs
    · split
      · dsimp only
        rw [fmod1_nonneg (add_nonneg hs.1 gamma_pos.le)]
        exact ⟨Int.fract_nonneg _, Int.fract_lt_one _⟩
      · exact hs
  induction h with
  | init => rw [h0]; norm_num
  | draw _ ih => exact hget _ ih
  | seek n _ _ =>
    unfold setToNth
    generalize n.toNat = k
    induction k with
    | zero => simp
    | succ k ihk => rw [forLoop_succ]; exact hget _ ihk

/-- The uniform number used by a draw from a reachable state, and the value it gives. -/
theorem Reach.get_value {l0 : ℝ} {det : Bool} {name : String} {a b : ℝ} {r0 r : Rand}
    {u : Nat → ℝ} (h0 : construct l0 det name a b = .ok r0) (hr : Reach u r0 r) (hne : a ≠ b) :
    (get u r).1 = value name a b (if det then Int.fract (r.last + gamma) else u r.pos) := by
  obtain ⟨e1, e2, e3, e4, _⟩ := construct_fields h0
  obtain ⟨l, p, hl⟩ := hr.frame
  have hlast := hr.last_range e4
  have hne' : r.max ≠ r.min := by rw [hl]; dsimp only; rw [e1, e2]; exact hne.symm
  have hdet : r.deterministic = det := by rw [hl]; exact e3
  have hm : ∀ t, mapValue r t = value name a b t := by
    intro t
    rw [← mapValue_eq h0 hne t, hl, mapValue_frame]
  unfold get
  rw [if_neg hne', hdet]
  cases det
  · simp [hm]
  · simp only [if_true, hm]
    rw [fmod1_nonneg (add_nonneg hlast.1 gamma_pos.le)]

/-- **C09.** Every value drawn from an accepted distribution, at any point of any history of
draws and seeks, lies between the bounds (`2 sided log`: its absolute value does); equal
bounds give exactly that constant.  The generator's numbers are assumed to be in [0,1]. -/
theorem get_in_range {l0 : ℝ} {det : Bool} {name : String} {a b : ℝ} {r0 r : Rand}
    {u : Nat → ℝ} (hu : ∀ k, 0 ≤ u k ∧ u k ≤ 1)
    (h0 : construct l0 det name a b = .ok r0) (hr : Reach u r0 r) :
    (name ≠ "2 sided log" → Between a b (get u r).1) ∧
    (name = "2 sided log" → Between a b |(get u r).1|) ∧
    (a = b → (get u r).1 = a) := by
  obtain ⟨e1, e2, e3, e4, _, _, _, _, hn⟩ := construct_fields h0
  have hacc := (acceptable_iff l0 det name a b).mp ⟨r0, h0⟩
  by_cases hab : a = b
  · have hv : (get u r).1 = a := by
      obtain ⟨l, p, hl⟩ := hr.frame
      have : r.max = r.min := by rw [hl]; dsimp only; rw [e1, e2, hab]
      unfold get
      rw [if_pos this, hl]
      dsimp only
      rw [e2, hab]
    refine ⟨fun _ => ?_, fun h2 => ?_, fun _ => hv⟩
    · rw [hv, ← hab]; exact .inl ⟨le_rfl, le_rfl⟩
    · rw [hv, ← hab]
      have ha : 0 ≤ a := by
        simp only [Acceptable, h2, String.reduceEq, false_or, true_and, false_and] at hacc
        rcases hacc with h | h
        · exact h.1.le
        · exact h.1.ge
      rw [abs_of_nonneg ha]; exact .inl ⟨le_rfl, le_rfl⟩
  rw [Reach.get_value h0 hr hab]
  have ht : 0 ≤ (if det then Int.fract (r.last + gamma) else u r.pos) ∧
      (if det then Int.fract (r.last + gamma) else u r.pos) ≤ 1 := by
    cases det
    · simpa using hu r.pos
    · simpa using (Int.fract_lt_one (r.last + gamma)).le
  generalize (if det then Int.fract (r.last + gamma) else u r.pos) = t at ht
  refine ⟨fun h2 => ?_, fun h2 => ?_, fun h => absurd h hab⟩
  · rcases hn with ⟨hn, _⟩ | ⟨hn, _⟩ | ⟨hn, _⟩
    · subst hn; simp only [value, if_true]; exact between_lerp ht.1 ht.2
    · subst hn
      simp only [Acceptable, String.reduceEq, false_or, true_and, false_and, or_false] at hacc
      simp only [value, String.reduceEq, if_false, if_true]
      rcases hacc with ⟨ha, hb⟩ | ⟨ha, hb⟩ | ⟨ha, hb⟩
      · rw [if_pos ha]; exact between_gerp ha hb ht.1 ht.2
      · rw [if_neg (by linarith)]
        rcases between_gerp (a := -a) (b := -b) (by linarith) (by linarith) ht.1 ht.2 with h | h
        · right; constructor <;> linarith [h.1, h.2]
        · left; constructor <;> linarith [h.1, h.2]
      · exact absurd (ha.trans hb.symm) hab
    · exact absurd hn h2
  · subst h2
    simp only [Acceptable, String.reduceEq, false_or, true_and, false_and] at hacc
    simp only [value, String.reduceEq, if_false]
    rcases hacc with ⟨ha, hb⟩ | ⟨ha, hb⟩
    · split
      · rename_i h
        rw [abs_of_pos (gerp_pos ha hb _)]
        exact between_gerp ha hb (by linarith) (by linarith [ht.1])
      · rename_i h
        rw [abs_neg, abs_of_pos (gerp_pos ha hb _)]
        exact between_gerp ha hb (by linarith) (by linarith [ht.2])
    · exact absurd (ha.trans hb.symm) hab

/-- Non-vacuity: a `2 sided log` generator on [1,2] in reproducible mode, after a seek and a
draw. -/
example : ∃ r0 r, construct 0 true "2 sided log" 1 2 = .ok r0 ∧
    Reach (fun _ => 0) r0 r ∧ r.last = Int.fract (4 * gamma) := by
  obtain ⟨r0, h0⟩ := (construct_ok_iff 0 true "2 sided log" 1 2).mpr
    (.inr (.inr ⟨rfl, .inl ⟨by norm_num, by norm_num⟩⟩))
  obtain ⟨e1, e2, e3, e4, _⟩ := construct_fields h0
  refine ⟨r0, setToNth (fun _ => 0) 4 r0, h0, .seek 4 .init, ?_⟩
  rw [setToNth_det _ _ e3 (by rw [e1, e2]; norm_num)]
  rfl

/-- **C10 (seek then draw = draw).** In reproducible mode with distinct bounds, from any
reachable state, seeking to position `n ≥ 0` leaves exactly the state that `n` draws from the
fresh generator leave, so the next value and all later values agree. -/
theorem seek_eq_draws {l0 : ℝ} {name : String} {a b : ℝ} {r0 r : Rand} {u : Nat → ℝ}
    (h0 : construct l0 true name a b = .ok r0) (hr : Reach u r0 r) (hab : a ≠ b) (n : Nat) :
    ∃ r', r' = setToNth u n r ∧ r'.last = (forLoop n (fun _ r => (get u r).2) r0).last ∧
      (∀ k, (get u (forLoop k (fun _ r => (get u r).2) r')).1
        = (get u (forLoop (n + k) (fun _ r => (get u r).2) r0)).1) := by
  obtain ⟨e1, e2, e3, e4, _⟩ := construct_fields h0
  obtain ⟨l, p, hl⟩ := hr.frame
  have hne0 : r0.max ≠ r0.min := by rw [e1, e2]; exact hab.symm
  have hne : r.max ≠ r.min := by rw [hl]; exact hne0
  have hd : r.deterministic = true := by rw [hl]; exact e3
  have hpos : ∀ m, (forLoop m (fun _ r => (get u r).2) r0)
      = { r0 with last := Int.fract (m * gamma) } := by
    intro m
    rw [draws_det u r0 e3 hne0 e4.ge]
    congr 1
    split
    · rename_i h; subst h; simp [e4]
    · rw [e4, zero_add]
  have hfr : ∀ m : ℕ, 0 ≤ Int.fract ((m : ℝ) * gamma) := fun m => Int.fract_nonneg _
  refine ⟨_, rfl, ?_, fun k => ?_⟩
  · rw [setToNth_det u r hd hne, hpos]; rfl
  · rw [setToNth_det u r hd hne, hpos,
      draws_det u { r with last := Int.fract (((n : ℤ).toNat : ℝ) * gamma) } hd hne
        (Int.fract_nonneg _)]
    have hlast : (if k = 0 then Int.fract (((n : ℤ).toNat : ℝ) * gamma)
        else Int.fract (Int.fract (((n : ℤ).toNat : ℝ) * gamma) + k * gamma))
        = Int.fract (((n + k : ℕ) : ℝ) * gamma) := by
      rw [Int.toNat_natCast]
      split
      · rename_i h; subst h; simp
      · rw [Int.fract_eq_fract]
        refine ⟨-⌊(n : ℝ) * gamma⌋, ?_⟩
        rw [← Int.self_sub_floor ((n : ℝ) * gamma)]; push_cast; ring
    dsimp only
    rw [hlast]
    unfold get
    dsimp only
    rw [if_neg hne, if_neg hne0, if_pos hd, if_pos e3, hl]
    rfl

/-- **C10 (n-th value).** The value drawn after seeking to position `n` is the distribution
applied to the fractional part of `(n+1)·γ`. -/
theorem nth_value {l0 : ℝ} {name : String} {a b : ℝ} {r0 r : Rand} {u : Nat → ℝ}
    (h0 : construct l0 true name a b = .ok r0) (hr : Reach u r0 r) (hab : a ≠ b) (n : Nat) :
    (get u (setToNth u n r)).1 = value name a b (Int.fract ((n + 1) * gamma)) := by
  obtain ⟨e1, e2, e3, e4, _⟩ := construct_fields h0
  obtain ⟨l, p, hl⟩ := hr.frame
  have hne : r.max ≠ r.min := by rw [hl]; dsimp only; rw [e1, e2]; exact hab.symm
  have hd : r.deterministic = true := by rw [hl]; exact e3
  rw [Reach.get_value h0 (.seek n hr) hab, if_pos rfl, setToNth_det u r hd hne]
  congr 1
  dsimp only
  rw [Int.toNat_natCast, Int.fract_eq_fract]
  refine ⟨-⌊(n : ℝ) * gamma⌋, ?_⟩
  rw [← Int.self_sub_floor ((n : ℝ) * gamma)]; push_cast; ring

/-- **C10 (additivity).** Seeking to `m` and drawing `k` times leaves the generator exactly
where seeking to `m + k` does. -/
theorem seek_draw_add {l0 : ℝ} {name : String} {a b : ℝ} {r0 r : Rand} {u : Nat → ℝ}
    (h0 : construct l0 true name a b = .ok r0) (hr : Reach u r0 r) (hab : a ≠ b) (m k : Nat) :
    forLoop k (fun _ r => (get u r).2) (setToNth u m r) = setToNth u (m + k : Nat) r := by
  obtain ⟨e1, e2, e3, e4, _⟩ := construct_fields h0
  obtain ⟨l, p, hl⟩ := hr.frame
  have hne : r.max ≠ r.min := by rw [hl]; dsimp only; rw [e1, e2]; exact hab.symm
  have hd : r.deterministic = true := by rw [hl]; exact e3
  rw [setToNth_det u r hd hne, setToNth_det u r hd hne,
    draws_det u { r with last := Int.fract (((m : ℤ).toNat : ℝ) * gamma) } hd hne
      (Int.fract_nonneg _)]
  simp only [Int.toNat_natCast]
  congr 1
  split
  · rename_i h; subst h; simp
  · rw [Int.fract_eq_fract]
    refine ⟨-⌊(m : ℝ) * gamma⌋, ?_⟩
    rw [← Int.self_sub_floor ((m : ℝ) * gamma)]; push_cast; ring

/-- **C10 (no repetition).** The underlying sequence of fractional parts never repeats:
different positions give different numbers. -/
theorem sequence_injective (m n : Nat) (h : Int.fract ((m + 1) * gamma) = Int.fract ((n + 1) * gamma)) :
    m = n := by
  obtain ⟨z, hz⟩ := Int.fract_eq_fract.mp h
  by_contra hmn
  have hirr := Real.goldenRatio_irrational
  apply hirr
  have hd : (m : ℝ) - n ≠ 0 := by
    rw [sub_ne_zero]; exact_mod_cast hmn
  refine ⟨(z : ℚ) / ((m : ℚ) - n), ?_⟩
  push_cast
  rw [div_eq_iff hd, ← gamma_eq, ← hz]
  ring

/-- Non-vacuity for C10: a linear generator on [-1,3] after one draw. -/
example : ∃ r0, construct 0 true "linear" (-1) 3 = .ok r0 ∧
    Reach (fun _ => 0) r0 (get (fun _ => 0) r0).2 ∧ (-1 : ℝ) ≠ 3 := by
  obtain ⟨r0, h0⟩ := (construct_ok_iff 0 true "linear" (-1) 3).mpr (.inl rfl)
  exact ⟨r0, h0, .draw .init, by norm_num⟩

/-- **C10 (degenerate range).** With equal bounds the position is never advanced: the comment
"set the position in the sequence to n" does not apply. -/
theorem degenerate_never_advances {l0 : ℝ} {det : Bool} {name : String} {a : ℝ} {r0 : Rand}
    {u : Nat → ℝ} (h0 : construct l0 det name a a = .ok r0) (n : Int) :
    setToNth u n r0 = r0 := by
  obtain ⟨e1, e2, _, e4, _⟩ := construct_fields h0
  unfold setToNth
  rw [draws_degenerate u { r0 with last := 0 } (e2.trans e1.symm)]
  cases r0; simp_all

/-- **C10 (documentation disagreement).** random.cpp 99-102 says `set_to_nth` has no effect when
`deterministic = false`.  In fact it consumes `n` numbers of the generator. -/
theorem setToNth_nondeterministic {l0 : ℝ} {name : String} {a b : ℝ} {r0 : Rand}
    {u : Nat → ℝ} (h0 : construct l0 false name a b = .ok r0) (hab : a ≠ b) (n : Nat) :
    (setToNth u n r0).pos = n := by
  obtain ⟨e1, e2, e3, e4, e5, _⟩ := construct_fields h0
  unfold setToNth
  rw [draws_nondet u { r0 with last := 0 } e3 (by dsimp only; rw [e1, e2]; exact hab.symm)]
  simp [e5]

/-- **C09 (documentation disagreement).** random.cpp 11 says "Swapping min and max never has
any effect".  It keeps acceptance and range (`construct_swap`, `get_in_range`) but not the
values: for the uniform distribution the swapped generator returns the mirror image. -/
theorem swap_mirrors {l0 : ℝ} {a b : ℝ} {r0 s0 : Rand} {u : Nat → ℝ}
    (h0 : construct l0 true "linear" a b = .ok r0) (g0 : construct l0 true "linear" b a = .ok s0)
    (hab : a ≠ b) (n : Nat) :
    (get u (setToNth u n s0)).1 = a + b - (get u (setToNth u n r0)).1 := by
  rw [nth_value h0 .init hab, nth_value g0 .init hab.symm]
  simp only [value, if_true, lerp]
  ring

/-- The disagreement is real: swapping changes a drawn value. -/
theorem swap_has_effect : ∃ r0 s0, construct 0 true "linear" 0 1 = .ok r0 ∧
    construct 0 true "linear" 1 0 = .ok s0 ∧
    ∀ u, (get u r0).1 ≠ (get u s0).1 := by
  obtain ⟨r0, h0⟩ := (construct_ok_iff 0 true "linear" 0 1).mpr (.inl rfl)
  obtain ⟨s0, g0⟩ := (construct_ok_iff 0 true "linear" 1 0).mpr (.inl rfl)
  refine ⟨r0, s0, h0, g0, fun u => ?_⟩
  obtain ⟨_, _, _, e4, _⟩ := construct_fields h0
  obtain ⟨_, _, _, f4, _⟩ := construct_fields g0
  rw [Reach.get_value h0 .init (by norm_num), Reach.get_value g0 .init (by norm_num), e4, f4]
  simp only [value, if_true, lerp, zero_add]
  intro h
  have h2 : Int.fract gamma = 1 / 2 := by linarith
  have hirr := Real.goldenRatio_irrational
  apply hirr
  refine ⟨(⌊gamma⌋ : ℚ) + 1 / 2, ?_⟩
  push_cast
  rw [← h2, ← gamma_eq]
  exact Int.floor_add_fract gamma

end Qsc.Random
