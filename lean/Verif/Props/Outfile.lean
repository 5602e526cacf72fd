import Verif.Lemmas.Outfile

/-!
# Property C03: output file names
-/

namespace Qsc.Outfile

/-- Specification: `path` is `dir` followed by a final component `qsc_in.<ext>`, where `dir`
is empty or ends in '/', and the final component contains no '/'. -/
def IsInputPath (path dir ext : List Char) : Prop :=
  (dir = [] ∨ ∃ d, dir = d ++ ['/']) ∧ '/' ∉ ext ∧ path = dir ++ "qsc_in.".toList ++ ext

/-- **C03 (value).** On a path of the documented form the output name is in the same
directory with final component `qsc_out.<ext>.nc`. -/
theorem outfile_ok (path dir ext : List Char) (h : IsInputPath path dir ext) :
    outfile path = .ok (dir ++ "qsc_out.".toList ++ ext ++ ".nc".toList) := by
  obtain ⟨hd, hext, rfl⟩ := h
  have hf : '/' ∉ "qsc_in.".toList ++ ext := by
    rw [List.mem_append, not_or]
    exact ⟨by decide, hext⟩
  have hcore : ∀ d, core d (qscIn ++ ext) = .ok (d ++ qscOut ++ ext ++ dotNc) := by
    intro d
    unfold core
    rw [if_pos (List.prefix_append _ _), List.drop_left' qscIn_length]
  rcases hd with rfl | ⟨d, rfl⟩
  · rw [List.nil_append, outfile_noslash _ hf]
    exact hcore _
  · rw [show d ++ ['/'] ++ "qsc_in.".toList ++ ext = d ++ '/' :: ("qsc_in.".toList ++ ext) by simp,
      outfile_slash _ _ hf]
    exact hcore _

/-- **C03 (acceptance).** `outfile` succeeds on exactly the paths of the documented form;
every other path throws the "must begin with 'qsc_in.'" error (and never `out_of_range`). -/
theorem outfile_error_iff (path : List Char) :
    outfile path = .error .badName ↔ ¬ ∃ dir ext, IsInputPath path dir ext := by
  constructor
  · rintro h ⟨dir, ext, hp⟩
    rw [outfile_ok path dir ext hp] at h
    cases h
  · intro h
    have hcore : ∀ d f, (d = [] ∨ ∃ d', d = d' ++ ['/']) → '/' ∉ f → path = d ++ f →
        core d f = .error .badName := by
      intro d f hd hf hp
      unfold core
      split
      · rename_i hpre
        obtain ⟨ext, rfl⟩ := hpre
        exact absurd ⟨d, ext, hd, fun hc => hf (List.mem_append_right _ hc), by
          rw [hp, List.append_assoc]; rfl⟩ h
      · rfl
    cases hr : rfind '/' path with
    | none =>
      have hn := rfind_none.mp hr
      rw [outfile_noslash _ hn]
      exact hcore [] path (Or.inl rfl) hn rfl
    | some i =>
      obtain ⟨a, b, e, _, hb⟩ := rfind_some hr
      rw [e, outfile_slash _ _ hb]
      exact hcore _ b (Or.inr ⟨a, rfl⟩) hb (by rw [e]; simp)

/-- There is no third outcome. -/
theorem outfile_total (path : List Char) :
    (∃ out, outfile path = .ok out) ∨ outfile path = .error .badName := by
  by_cases h : ∃ dir ext, IsInputPath path dir ext
  · obtain ⟨dir, ext, hp⟩ := h
    exact Or.inl ⟨_, outfile_ok path dir ext hp⟩
  · exact Or.inr ((outfile_error_iff path).mpr h)

/-- **C03 (injectivity).** Two accepted paths with the same output name are equal. -/
theorem outfile_injective (p q out : List Char) (hp : outfile p = .ok out)
    (hq : outfile q = .ok out) : p = q := by
  have acc : ∀ x, outfile x = .ok out → ∃ dir ext, IsInputPath x dir ext := by
    intro x hx
    by_cases h : ∃ dir ext, IsInputPath x dir ext
    · exact h
    · rw [(outfile_error_iff x).mpr h] at hx; cases hx
  obtain ⟨d1, e1, i1⟩ := acc p hp
  obtain ⟨d2, e2, i2⟩ := acc q hq
  have h1 := outfile_ok p d1 e1 i1
  have h2 := outfile_ok q d2 e2 i2
  rw [hp] at h1
  rw [hq] at h2
  simp only [Except.ok.injEq] at h1 h2
  rw [h1] at h2
  obtain ⟨s1, n1, rfl⟩ := i1
  obtain ⟨s2, n2, rfl⟩ := i2
  have h3 := List.append_cancel_right h2
  -- compare the last '/' in both
  have hno : ∀ e : List Char, '/' ∉ e → '/' ∉ "qsc_out.".toList ++ e := by
    intro e he
    rw [List.mem_append, not_or]
    exact ⟨by decide, he⟩
  have key : ∀ (d e : List Char), (d = [] ∨ ∃ d', d = d' ++ ['/']) → '/' ∉ e →
      (rfind '/' (d ++ ("qsc_out.".toList ++ e))).map (· + 1) = if d = [] then none else some d.length := by
    intro d e hd he
    rcases hd with rfl | ⟨d', rfl⟩
    · rw [List.nil_append, rfind_none.mpr (hno e he)]; rfl
    · rw [show d' ++ ['/'] ++ ("qsc_out.".toList ++ e) = d' ++ '/' :: ("qsc_out.".toList ++ e) by simp,
        rfind_append _ _ (hno e he)]
      simp
  have k1 := key d1 e1 s1 n1
  have k2 := key d2 e2 s2 n2
  rw [← List.append_assoc, h3, List.append_assoc, k2] at k1
  have hlen : d1.length = d2.length := by
    by_cases a : d1 = [] <;> by_cases b : d2 = [] <;> simp_all
  rw [List.append_assoc, List.append_assoc] at h3
  obtain ⟨hd, he⟩ := List.append_inj h3 hlen
  rw [hd, List.append_cancel_left he]

/-- Non-vacuity: a path with a directory containing 'qsc_in.' itself. -/
example : IsInputPath "/path/qsc_in.foo/qsc_in.bar".toList "/path/qsc_in.foo/".toList "bar".toList ∧
    outfile "/path/qsc_in.foo/qsc_in.bar".toList = .ok "/path/qsc_in.foo/qsc_out.bar.nc".toList := by
  refine ⟨⟨Or.inr ⟨"/path/qsc_in.foo".toList, by decide⟩, by decide, by decide⟩, rfl⟩

/-- Non-vacuity of the rejection: the final component is what counts. -/
example : outfile "/path/qsc_in.foo/".toList = .error .badName := rfl

end Qsc.Outfile

namespace Qsc.Outfile

theorem stageOutfile_ok (path dir ext : List Char) (j : Nat) (h : IsInputPath path dir ext) :
    stageOutfile path j
      = .ok (dir ++ "qsc_out.".toList ++ ext ++ ('_' :: (Nat.repr j).toList) ++ ".nc".toList) := by
  unfold stageOutfile
  rw [outfile_ok path dir ext h]
  have hs : substr (dir ++ "qsc_out.".toList ++ ext ++ ".nc".toList) 0
      ((dir ++ "qsc_out.".toList ++ ext ++ ".nc".toList).length - 3)
      = .ok (dir ++ "qsc_out.".toList ++ ext) := by
    simp only [substr, gt_iff_lt, Nat.not_lt_zero, if_false, List.drop_zero]
    congr 1
    rw [List.take_append_of_le_length (by simp; omega), List.take_of_length_le (by simp; omega)]
  simp only [bind, Except.bind, hs, pure, Except.pure, toStr, dotNc]
  simp

/-- **C33 (names).** The output files of a multi-stage optimization are pairwise distinct,
and distinct from those of any other accepted input path: the pair (input path, stage) is
determined by the output name. -/
theorem stageOutfile_injective (p q out : List Char) (j k : Nat)
    (hp : stageOutfile p j = .ok out) (hq : stageOutfile q k = .ok out) : p = q ∧ j = k := by
  have acc : ∀ x i, stageOutfile x i = .ok out → ∃ dir ext, IsInputPath x dir ext := by
    intro x i hx
    by_cases h : ∃ dir ext, IsInputPath x dir ext
    · exact h
    · unfold stageOutfile at hx
      rw [(outfile_error_iff x).mpr h] at hx
      cases hx
  obtain ⟨d1, e1, i1⟩ := acc p j hp
  obtain ⟨d2, e2, i2⟩ := acc q k hq
  have h1 := stageOutfile_ok p d1 e1 j i1
  have h2 := stageOutfile_ok q d2 e2 k i2
  rw [hp] at h1
  rw [hq] at h2
  simp only [Except.ok.injEq] at h1 h2
  rw [h1] at h2
  have h3 := List.append_cancel_right h2
  have hu : ∀ n : Nat, '_' ∉ (Nat.repr n).toList := by
    intro n
    rw [Nat.toList_repr]
    exact Nat.underscore_not_in_toDigits
  have r1 := rfind_append (c := '_') (d1 ++ "qsc_out.".toList ++ e1) _ (hu j)
  have r2 := rfind_append (c := '_') (d2 ++ "qsc_out.".toList ++ e2) _ (hu k)
  rw [h3, r2] at r1
  simp only [Option.some.injEq] at r1
  obtain ⟨ha, hb⟩ := List.append_inj h3 r1.symm
  simp only [List.cons.injEq, true_and] at hb
  constructor
  · apply outfile_injective p q (d2 ++ "qsc_out.".toList ++ e2 ++ ".nc".toList)
    · rw [outfile_ok p d1 e1 i1, ha]
    · rw [outfile_ok q d2 e2 i2]
  · rw [Nat.toList_repr, Nat.toList_repr] at hb
    rw [← Nat.ofDigitChars_ten_toDigits (n := j), hb, Nat.ofDigitChars_ten_toDigits]

/-- Non-vacuity: stage 12 of a concrete path. -/
example : stageOutfile "a/qsc_in.b".toList 12 = .ok "a/qsc_out.b_12.nc".toList := rfl

end Qsc.Outfile
