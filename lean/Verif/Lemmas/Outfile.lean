import Verif.Model.Outfile

namespace Qsc.Outfile

theorem rfind_none {c : Char} {s : List Char} : rfind c s = none ↔ c ∉ s := by
  induction s with
  | nil => simp [rfind]
  | cons x xs ih =>
    unfold rfind
    cases h : rfind c xs with
    | some i =>
      simp only [reduceCtorEq, List.mem_cons, not_or, false_iff, not_and, Classical.not_not]
      intro _
      rw [h] at ih
      simpa using ih
    | none =>
      rw [h] at ih
      by_cases hx : x = c
      · simp [hx]
      · simp only [hx, if_false, true_iff]
        simp only [List.mem_cons, not_or]
        exact ⟨fun hc => hx hc.symm, by simpa using ih⟩

theorem rfind_some {c : Char} {s : List Char} {i : Nat} (h : rfind c s = some i) :
    ∃ a b, s = a ++ c :: b ∧ a.length = i ∧ c ∉ b := by
  induction s generalizing i with
  | nil => simp [rfind] at h
  | cons x xs ih =>
    unfold rfind at h
    cases h' : rfind c xs with
    | some k =>
      rw [h'] at h
      simp only [Option.some.injEq] at h
      obtain ⟨a, b, e, hl, hb⟩ := ih h'
      exact ⟨x :: a, b, by simp [e], by simp [hl, h], hb⟩
    | none =>
      rw [h'] at h
      by_cases hx : x = c
      · simp only [hx, if_true, Option.some.injEq] at h
        exact ⟨[], xs, by simp [hx], by simp [h], rfind_none.mp h'⟩
      · simp [hx] at h

theorem rfind_append {c : Char} (a b : List Char) (hb : c ∉ b) :
    rfind c (a ++ c :: b) = some a.length := by
  induction a with
  | nil => simp [rfind, rfind_none.mpr hb]
  | cons x xs ih => simp [rfind, ih]

theorem qscIn_length : qscIn.length = 7 := by decide

/-- core of `outfile` after splitting the directory -/
def core (d f : List Char) : Except Err (List Char) :=
  if qscIn <+: f then .ok (d ++ qscOut ++ f.drop 7 ++ dotNc) else .error .badName

theorem outfile_body (d f : List Char) :
    (if f.length < 7 then (.error .badName : Except Err (List Char))
     else do
      let infile_start ← substr f 0 7
      if infile_start ≠ qscIn then .error .badName
      else
        let ext ← substr f 7 (f.length - 7)
        pure (d ++ qscOut ++ ext ++ dotNc)) = core d f := by
  unfold core
  by_cases h : f.length < 7
  · rw [if_pos h, if_neg]
    intro hp
    have := hp.length_le
    rw [qscIn_length] at this
    omega
  · rw [if_neg h]
    have e1 : substr f 0 7 = .ok (f.take 7) := by simp [substr]
    have e2 : substr f 7 (f.length - 7) = .ok (f.drop 7) := by
      simp only [substr]
      rw [if_neg (by omega)]
      congr 1
      rw [List.take_of_length_le]
      simp
    rw [e1, e2]
    simp only [bind, Except.bind, pure, Except.pure]
    have : (f.take 7 ≠ qscIn) ↔ ¬ qscIn <+: f := by
      rw [List.prefix_iff_eq_take, qscIn_length]
      exact ⟨fun h h' => h h'.symm, fun h h' => h h'.symm⟩
    by_cases hq : f.take 7 = qscIn
    · rw [if_neg (by simpa using hq), if_pos]
      exact Classical.not_not.mp (fun hc => (this.mpr hc) hq)
    · rw [if_pos hq, if_neg (this.mp hq)]

theorem outfile_noslash (f : List Char) (h : '/' ∉ f) : outfile f = core [] f := by
  unfold outfile
  rw [rfind_none.mpr h]
  simp only [pure_bind]
  exact outfile_body [] f

theorem outfile_slash (a b : List Char) (hb : '/' ∉ b) :
    outfile (a ++ '/' :: b) = core (a ++ ['/']) b := by
  unfold outfile
  rw [rfind_append a b hb]
  have e1 : substr (a ++ '/' :: b) 0 (a.length + 1) = .ok (a ++ ['/']) := by
    simp only [substr, Nat.not_lt_zero, gt_iff_lt, if_false, List.drop_zero]
    congr 1
    rw [List.take_append]
    simp [List.take_of_length_le]
  have e2 : substr (a ++ '/' :: b) (a.length + 1) ((a ++ '/' :: b).length - a.length - 1) = .ok b := by
    simp only [substr]
    rw [if_neg (by simp)]
    congr 1
    rw [List.drop_append, List.take_of_length_le]
    · simp [List.drop_of_length_le]
    · simp
  simp only [e1, e2]
  exact outfile_body (a ++ ['/']) b

end Qsc.Outfile
