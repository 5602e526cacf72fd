import Verif.Lemmas.FortranFile
import Verif.Props.Output

/-!
# Reading a file of the Fortran version (C95)
-/

namespace Qsc.FortranFile
open Qsc.Netcdf Qsc.Output Qsc.Spec.Netcdf Qsc.Spec.Output Qsc.Spec.FortranFile

variable {F : Type}

/-! ## Strings -/

/-- **C95.**  Defect: the strings of the Fortran version fill the array of 50 characters without a zero byte, so
`std::string(nc_string)` reads past its end.  With only the memory of the array the result is undefined, for
every file of the Fortran version, whatever the array held before. -/
theorem overread {f : File F} {n : Nat} {order : String} (hf : IsFortran f n order) (zero : F) (inv : F → F)
    (o : Obj F) {y : Int} (hy : o.mem "nphi" = .ints [y]) (stack : List Char) (hs : stack.length = 50) :
    readF zero inv stack f o = .error (.undefined "nc_string has no end") := by
  obtain ⟨v, hv, hd⟩ := find_holds hf.names hf.text
  have h1 : getAs f o.mem ("N_phi", "nphi") = .ok (set o.mem "nphi" (.ints [(n : Int)])) := by
    unfold getAs
    dsimp only
    rw [hy, getVar_int hf.names hf.nphi]
  have hlen : (order.toList ++ List.replicate (50 - order.toList.length) ' ').length = 50 := by
    have := hf.short
    simp only [List.length_append, List.length_replicate]
    omega
  have h2 : getText f stack "order_r_option" = .error (.undefined "nc_string has no end") := by
    unfold getText
    rw [hv]
    simp only [hd]
    rw [if_neg (by rw [hlen]; omega), hlen, List.drop_of_length_le (by omega), List.append_nil]
    have e : (order.toList ++ List.replicate (50 - order.toList.length) ' ').takeWhile (fun c => c != '\x00')
        = order.toList ++ List.replicate (50 - order.toList.length) ' ' := by
      rw [takeWhile_all _ (plain_noZero hf.plain), List.takeWhile_replicate, if_pos (by decide)]
    rw [e, if_pos rfl]
  unfold readF
  rw [h1]
  simp only [h2]

/-- **C95.**  A text shorter than the array, without blanks and zero bytes, as the C++ version writes them, is
read together with what the array happened to hold: any plain continuation that fits may appear. -/
theorem stale_memory {f : File F} (hn : (f.vars.map (·.name)).Nodup) {name : String} {l s : List Char}
    (h : Holds f name (.chars l)) (hl : Plain l) (hs : Plain s) (hfit : l.length + s.length + 2 ≤ 50) :
    ∃ stack : List Char, stack.length = 50 ∧ getText f stack name = .ok (l ++ s) := by
  refine ⟨List.replicate l.length 'x' ++ (s ++ ' ' :: List.replicate (49 - l.length - s.length) '\x00'), ?_, ?_⟩
  · simp only [List.length_append, List.length_replicate, List.length_cons]
    omega
  · obtain ⟨k, hk⟩ : ∃ k, 49 - l.length - s.length = k + 1 := ⟨48 - l.length - s.length, by omega⟩
    refine getText_ok (r := []) (w := List.replicate k '\x00') hn h (by omega) ?_ ?_ (by simp)
    · rw [List.drop_left' (by simp), hk, List.replicate_succ, List.append_assoc, List.nil_append]
    · intro c hc
      rcases List.mem_append.mp hc with hc | hc
      · exact hl c hc
      · exact hs c hc

/-- **C95.**  A text with a zero byte before any blank, which is how C marks the end of a string, makes
`resize(-1)` throw, whatever the memory holds. -/
theorem no_blank {f : File F} (hn : (f.vars.map (·.name)).Nodup) {name : String} {l w : List Char}
    (h : Holds f name (.chars (l ++ '\x00' :: w))) (hl : Plain l) (hfit : l.length + w.length < 50)
    (stack : List Char) : getText f stack name = .error (.nc "std::length_error") := by
  obtain ⟨v, hv, hd⟩ := find_holds hn h
  unfold getText
  rw [hv]
  simp only [hd]
  have e : ∀ r : List Char, (l ++ '\x00' :: w ++ r).takeWhile (fun c => c != '\x00') = l := by
    intro r
    rw [List.append_assoc, takeWhile_all _ (plain_noZero hl)]
    simp
  have e2 : l.takeWhile (fun c => c != ' ') = l := by
    have := takeWhile_all (p := fun c => c != ' ') [] (plain_noBlank hl)
    simpa using this
  rw [if_neg (by simp; omega), e, if_neg (by simp), e2, if_pos rfl]

/-! ## Files -/

/-- **C95.**  A file of the Fortran version, read when there happens to be a zero byte somewhere behind the
array: the result does not depend on that memory.  The orders are those of `order_r_option` without the
blanks; every integer, number and function of the angle listed in the specification is that of the file under
its Fortran name; for an even number of grid points the class uses one more, and the functions have a zero there;
`L_grad_grad_B` is the inverse, element by element, of the inverse scale length; every other scalar, string and
axis coefficient of the class keeps its value, and every other array is zero. -/
theorem fortran_read {f : File F} {n : Nat} {order : String} (hf : IsFortran f n order) (zero : F) (inv : F → F)
    (t : Obj F) (ht : ∀ p ∈ qscMembers (orders order), p.2 = .int ∨ p.2 = .flt → Fits t.mem (sizes []) p.1 p.2)
    (array behind : List Char) (ha : array.length = 50) (hb : '\x00' ∈ behind) :
    ∃ o', readF zero inv (array ++ behind) f t = .ok o' ∧ o'.fl = orders order ∧
      o'.mem "order_r_option" = .chars order.toList ∧ o'.mem "nphi" = .ints [(oddUp n : Int)] ∧
      (∀ q ∈ intQ ++ fltQ (orders order), ∀ d, Holds f q.1 d → o'.mem q.2 = d) ∧
      (∀ q ∈ vecQ (orders order), ∀ l, Holds f q.1 (.flts l) →
        o'.mem q.2 = .flts (l ++ List.replicate (oddUp n - n) zero)) ∧
      ((orders order).r2 = true → ∀ l, Holds f "grad_grad_B_inverse_scale_length_vs_zeta" (.flts l) →
        o'.mem "L_grad_grad_B" = .flts ((l ++ List.replicate (oddUp n - n) zero).map inv)) ∧
      ∀ p ∈ qscMembers (orders order),
        p.1 ∉ ["order_r_option", "nphi", "L_grad_grad_B"] ++
          (intQ ++ fltQ (orders order) ++ vecQ (orders order)).map Prod.snd →
        (p.2 ∈ ([.int, .flt, .str, .flts [1], .atLeast [1]] : List Shape) → o'.mem p.1 = t.mem p.1) ∧
        ∀ ds, p.2 = .flts ds → 1 ∉ ds →
          o'.mem p.1 = .flts (List.replicate (ds.map (sizes [oddUp n, 0, 3])).prod zero) := by
  have hnd := hf.names
  -- the number of grid points
  obtain ⟨y, hy⟩ := ht ("nphi", .int) (fixed_mem _ (by decide)) (Or.inl rfl)
  have h1 : getAs f t.mem ("N_phi", "nphi") = .ok (set t.mem "nphi" (.ints [(n : Int)])) := by
    unfold getAs
    dsimp only at hy ⊢
    rw [hy, getVar_int hnd hf.nphi]
  -- the text
  have hshort := hf.short
  obtain ⟨r, w, hrw, hr⟩ : ∃ r w, behind = r ++ '\x00' :: w ∧ ∀ c ∈ r, c ≠ '\x00' := first_of_mem hb
  have h2 : getText f (array ++ behind) "order_r_option" = .ok order.toList := by
    obtain ⟨k, hk⟩ : ∃ k, 50 - order.toList.length = k + 1 := ⟨49 - order.toList.length, by omega⟩
    refine getText_ok (s := order.toList) (r := List.replicate k ' ' ++ r) (w := w) hnd hf.text ?_ ?_ hf.plain ?_
    · simp only [List.length_append, List.length_replicate]
      omega
    · rw [List.drop_left' (by simp only [List.length_append, List.length_replicate]; omega), hrw, hk,
        List.replicate_succ]
      simp only [List.append_assoc, List.cons_append]
    · intro c hc
      rcases List.mem_append.mp hc with hc | hc
      · rw [List.eq_of_mem_replicate hc]; decide
      · exact hr c hc
  generalize hfl : orders order = fl at *
  -- the arrays
  obtain ⟨k, hk, -, o1, hal, hfl1, hn1, harr, hrest⟩ := allocate_members zero
    (⟨fl, set (set t.mem "nphi" (.ints [(n : Int)])) "order_r_option" (.chars order.toList)⟩ : Obj F) (x := n)
    (by dsimp only; rw [set_ne _ _ (by decide), set_eq]) (by omega)
  have hkn : k = oddUp n := by
    unfold oddUp
    split <;> rename_i h0
    · rw [if_pos (by omega)] at hk
      exact_mod_cast hk
    · rw [if_neg (by omega)] at hk
      exact_mod_cast hk
  subst hkn
  dsimp only at hfl1 harr hrest
  have hle : n ≤ oddUp n := by unfold oddUp; split <;> omega
  have hpos := hf.pos
  have scal : ∀ p ∈ qscMembers fl, p.1 ≠ "nphi" → p.1 ≠ "order_r_option" →
      p.2 ∈ ([.int, .flt, .str, .flts [1], .atLeast [1]] : List Shape) → o1.mem p.1 = t.mem p.1 := by
    intro p hp hp1 hp2 hs
    rw [hrest p hp hp1 hs, set_ne _ _ hp2, set_ne _ _ hp1]
  have notOpt : ∀ fl, (intQ ++ fltQ fl).all (fun q => q.2 != "order_r_option") = true := by
    rintro ⟨_ | _, _ | _, _ | _⟩ <;> decide +kernel
  have gi : ∀ q ∈ intQ, ∀ x, Holds f q.1 (.ints [x]) → getVar f q.1 (o1.mem q.2) = .ok (.ints [x]) := by
    intro q hq x hx
    have h := List.all_eq_true.mp (ints_shape fl) q hq
    have h' := List.all_eq_true.mp (notOpt fl) q (List.mem_append_left _ hq)
    simp only [Bool.and_eq_true, bne_iff_ne] at h h'
    obtain ⟨u, hu⟩ := ht _ (has_mem h.1) (Or.inl rfl)
    have e := scal _ (has_mem h.1) h.2 h' (by simp)
    dsimp only at e hu
    rw [e, hu]
    exact getVar_int hnd hx
  have gf : ∀ q ∈ fltQ fl, ∀ x, Holds f q.1 (.flts [x]) → getVar f q.1 (o1.mem q.2) = .ok (.flts [x]) := by
    intro q hq x hx
    have h := List.all_eq_true.mp (flts_shape fl) q hq
    have h' := List.all_eq_true.mp (notOpt fl) q (List.mem_append_right _ hq)
    simp only [Bool.and_eq_true, bne_iff_ne] at h h'
    obtain ⟨u, hu⟩ := ht _ (has_mem h.1) (Or.inr rfl)
    have e := scal _ (has_mem h.1) h.2 h' (by simp)
    dsimp only at e hu
    rw [e, hu, getVar_flts hnd hx (by simp) (by simp)]
    rfl
  have gv : ∀ q ∈ vecQ fl, ∀ l, Holds f q.1 (.flts l) → getVar f q.1 (o1.mem q.2)
      = .ok (.flts (l ++ List.replicate (oddUp n - n) zero)) := by
    intro q hq l hl
    have h := List.all_eq_true.mp (vecs_shape fl) q hq
    have e := harr _ (has_mem h) [0] rfl (by simp)
    dsimp only at e
    have e0 : ([0].map (sizes [oddUp n, 0, 3])).prod = oddUp n := by simp [sizes]
    obtain ⟨l', hl', hlen⟩ := hf.vecs q (by rw [hfl]; exact hq)
    have el := holds_unique hnd hl hl'
    injection el with el
    rw [e, e0, getVar_flts hnd hl (by rw [List.length_replicate, el]; omega) (by
      intro h0
      have := congrArg List.length h0
      rw [List.length_replicate, List.length_nil] at this
      omega), List.drop_replicate, el, hlen]
  obtain ⟨m', r1, r2, r3⟩ := getAll (f := f) (fortranReads fl) (m := o1.mem) (reads_nodup fl) (by
    intro q hq
    rcases (mem_reads fl q).mp hq with hq | hq | hq
    · obtain ⟨x, hx⟩ := hf.ints q hq
      exact ⟨_, gi q hq x hx⟩
    · obtain ⟨x, hx⟩ := hf.flts q (by rw [hfl]; exact hq)
      exact ⟨_, gf q hq x hx⟩
    · obtain ⟨l, hl, -⟩ := hf.vecs q (by rw [hfl]; exact hq)
      exact ⟨_, gv q hq l hl⟩)
  have mi : ∀ q ∈ intQ ++ fltQ fl, ∀ d, Holds f q.1 d → m' q.2 = d := by
    intro q hq d hd
    rcases List.mem_append.mp hq with hq | hq
    · obtain ⟨x, hx⟩ := hf.ints q hq
      have e := r2 q ((mem_reads fl q).mpr (Or.inl hq))
      rw [gi q hq x hx] at e
      injection e with e
      rw [← e, holds_unique hnd hd hx]
    · obtain ⟨x, hx⟩ := hf.flts q (by rw [hfl]; exact hq)
      have e := r2 q ((mem_reads fl q).mpr (Or.inr (Or.inl hq)))
      rw [gf q hq x hx] at e
      injection e with e
      rw [← e, holds_unique hnd hd hx]
  have mv : ∀ q ∈ vecQ fl, ∀ l, Holds f q.1 (.flts l) → m' q.2 = .flts (l ++ List.replicate (oddUp n - n) zero) := by
    intro q hq l hl
    have e := r2 q ((mem_reads fl q).mpr (Or.inr (Or.inr hq)))
    rw [gv q hq l hl] at e
    injection e with e
    exact e.symm
  have sp := List.all_eq_true.mp (special_not_read fl)
  have mo : m' "order_r_option" = .chars order.toList := by
    rw [r3 _ (of_decide_eq_true (sp _ (by simp))), hrest ("order_r_option", .str) (fixed_mem _ (by decide)) (by simp)
      (by simp), set_eq]
  have mn : m' "nphi" = .ints [(oddUp n : Int)] := by
    rw [r3 _ (of_decide_eq_true (sp _ (by simp))), hn1]
  have mrest : ∀ p ∈ qscMembers fl, p.1 ∉ ["order_r_option", "nphi", "L_grad_grad_B"] ++
      (intQ ++ fltQ fl ++ vecQ fl).map Prod.snd →
      (p.2 ∈ ([.int, .flt, .str, .flts [1], .atLeast [1]] : List Shape) → m' p.1 = t.mem p.1) ∧
      ∀ ds, p.2 = .flts ds → 1 ∉ ds →
        m' p.1 = .flts (List.replicate (ds.map (sizes [oddUp n, 0, 3])).prod zero) := by
    intro p hp hp'
    rw [List.mem_append, not_or] at hp'
    have hnr : p.1 ∉ (fortranReads fl).map Prod.snd := by
      intro h
      obtain ⟨q, hq, e⟩ := List.mem_map.mp h
      refine hp'.2 (List.mem_map.mpr ⟨q, ?_, e⟩)
      rw [List.mem_append, List.mem_append, or_assoc]
      exact (mem_reads fl q).mp hq
    have h12 := hp'.1
    simp only [List.mem_cons, List.not_mem_nil, or_false, not_or] at h12
    rw [r3 _ hnr]
    exact ⟨scal p hp h12.2.1 h12.1, harr p hp⟩
  have hread : readF zero inv (array ++ behind) f t =
      if fl.r2 then
        match invert inv m' with
        | .error e => .error e
        | .ok m => .ok { o1 with mem := m }
      else .ok { o1 with mem := m' } := by
    unfold readF
    rw [h1]
    simp only [h2, flagsOf_eq, hfl]
    rw [hal]
    simp only [hfl1, r1]
    rfl
  cases hr2 : fl.r2 with
  | false =>
    rw [hr2, if_neg (by simp)] at hread
    exact ⟨_, hread, hfl1, mo, mn, mi, mv, by simp, mrest⟩
  | true =>
    have hq := inverse_read fl
    rw [hr2] at hq
    have hq := of_decide_eq_true (by simpa using hq)
    obtain ⟨l, hl, -⟩ := hf.vecs _ (by rw [hfl]; exact hq)
    have hi : invert inv m' =
        .ok (set m' "L_grad_grad_B" (.flts ((l ++ List.replicate (oddUp n - n) zero).map inv))) := by
      unfold invert
      rw [mv _ hq l hl]
    rw [hr2, if_pos rfl, hi] at hread
    have keep : ∀ q ∈ fortranReads fl, q.2 ≠ "L_grad_grad_B" := fun q hq e =>
      of_decide_eq_true (sp "L_grad_grad_B" (by simp)) (e ▸ List.mem_map_of_mem hq)
    refine ⟨_, hread, hfl1, ?_, ?_, ?_, ?_, ?_, ?_⟩
    · dsimp only
      rw [set_ne _ _ (by decide), mo]
    · dsimp only
      rw [set_ne _ _ (by decide), mn]
    · intro q hq d hd
      dsimp only
      have hm : q ∈ fortranReads fl := (mem_reads fl q).mpr (by
        rcases List.mem_append.mp hq with h | h
        · exact Or.inl h
        · exact Or.inr (Or.inl h))
      rw [set_ne _ _ (keep q hm), mi q hq d hd]
    · intro q hq l hl
      dsimp only
      rw [set_ne _ _ (keep q ((mem_reads fl q).mpr (Or.inr (Or.inr hq)))), mv q hq l hl]
    · intro _ l' hl'
      dsimp only
      have el := holds_unique hnd hl' hl
      injection el with el
      rw [set_eq, el]
    · intro p hp hp'
      have hne : p.1 ≠ "L_grad_grad_B" := by
        intro e
        rw [e] at hp'
        simp at hp'
      dsimp only
      rw [set_ne _ _ hne]
      exact mrest p hp hp'

/-- **C95.**  Conversely, whenever a file is accepted, for any memory and any object, it holds every quantity of
the orders it asks for, and a text of at most 50 characters. -/
theorem fortran_needs {f : File F} {zero : F} {inv : F → F} {stack : List Char} {t o' : Obj F}
    (h : readF zero inv stack f t = .ok o') :
    (∃ d, Holds f "N_phi" d) ∧ (∃ l, Holds f "order_r_option" (.chars l) ∧ l.length ≤ 50) ∧
      ∀ q ∈ intQ ++ fltQ o'.fl ++ vecQ o'.fl, ∃ d, Holds f q.1 d := by
  unfold readF at h
  cases h1 : getAs f t.mem ("N_phi", "nphi") with
  | error e => rw [h1] at h; simp at h
  | ok m =>
  rw [h1] at h
  dsimp only at h
  cases h2 : getText f stack "order_r_option" with
  | error e => rw [h2] at h; simp at h
  | ok s =>
  rw [h2] at h
  dsimp only at h
  cases h3 : allocate zero ⟨flagsOf s, set m "order_r_option" (.chars s)⟩ with
  | error e => rw [h3] at h; simp at h
  | ok o =>
  rw [h3] at h
  dsimp only at h
  cases h4 : (fortranReads o.fl).foldlM (getAs f) o.mem with
  | error e => rw [h4] at h; simp at h
  | ok m2 =>
  rw [h4] at h
  dsimp only at h
  have hfl : o'.fl = o.fl := by
    split at h
    · split at h
      · exact absurd h (by simp)
      · injection h with h; rw [← h]
    · injection h with h; rw [← h]
  refine ⟨?_, getText_holds h2, ?_⟩
  · unfold getAs at h1
    cases hg : getVar f "N_phi" (t.mem "nphi") with
    | error e => dsimp only at h1; rw [hg] at h1; simp at h1
    | ok d => exact getVar_holds hg
  · intro q hq
    rw [hfl, List.mem_append, List.mem_append, or_assoc] at hq
    exact getAll_holds _ h4 q ((mem_reads o.fl q).mpr hq)

/-- **C95.**  A file that the C++ version wrote, with the argument `C_or_F`: it is accepted for the letter C only,
and then restores the configuration; as a file of the Fortran version it is refused, whatever the memory holds,
because it has no variable `N_phi`; any other letter is refused. -/
theorem cxx_file (toF : Nat → F) {o t : Obj F} {n ax : Nat} (ho : Configured o n ax) (hodd : n % 2 = 1)
    (ht : ∀ p ∈ qscMembers o.fl, p.2 = .int ∨ p.2 = .flt → Fits t.mem (sizes []) p.1 p.2) (zero : F) (inv : F → F)
    (stack : List Char) (which : Char) :
    ∃ f, writeQsc toF o = .ok f ∧
      ((∃ o', readNetcdf zero inv stack f t which = .ok o') ↔ which = 'C') ∧
      (∀ o', readNetcdf zero inv stack f t which = .ok o' → o'.fl = o.fl ∧ ∀ a ∈ restored o.fl, o'.mem a = o.mem a) ∧
      (which = 'F' → readNetcdf zero inv stack f t which = .error (.nc "NC_ENOTVAR")) := by
  obtain ⟨f, h1, -, -, -, -, h6, -, -⟩ := qsc_file toF ho
  obtain ⟨f', o', g1, g2, g3, -, g5, -⟩ := round_trip toF zero ho hodd ht
  rw [h1] at g1
  injection g1 with g1
  subst g1
  have hno : ∀ fl, "N_phi" ∉ (qscCalls fl).map Call.name := by
    rintro ⟨_ | _, _ | _, _ | _⟩ <;> decide +kernel
  have hfind : (f.vars.find? fun v => v.name == "N_phi") = none := by
    rw [List.find?_eq_none]
    intro v hv e
    refine hno o.fl ?_
    rw [← h6]
    exact List.mem_map.mpr ⟨v, hv, by simpa using e⟩
  have hF : readF zero inv stack f t = .error (.nc "NC_ENOTVAR") := by
    unfold readF getAs getVar
    simp only [hfind]
  refine ⟨f, h1, ?_⟩
  by_cases hC : which = 'C'
  · subst hC
    have e : readNetcdf zero inv stack f t 'C' = .ok o' := by
      unfold readNetcdf
      rw [if_neg (by decide), if_neg (by decide), g2]
    rw [e]
    refine ⟨by simp, ?_, by simp⟩
    rintro o2 h
    injection h with h
    subst h
    exact ⟨g3, g5⟩
  · have e : ∃ x, readNetcdf zero inv stack f t which = .error x ∧ (which = 'F' → x = .nc "NC_ENOTVAR") := by
      unfold readNetcdf
      by_cases hF' : which = 'F'
      · subst hF'
        exact ⟨_, by rw [if_neg (by decide), if_pos (by decide), hF], fun _ => rfl⟩
      · exact ⟨_, if_pos (by simp [hC, hF']), fun h => absurd h hF'⟩
    obtain ⟨x, e, ex⟩ := e
    rw [e]
    refine ⟨by simp [hC], by simp, fun h => by rw [ex h]⟩

/-! ## Examples -/

/-- A file of the Fortran version with four grid points and all orders. -/
def exFile : File Int :=
  ⟨[("N_phi", 4), ("dim_00050", 50)],
    [⟨"N_phi", .int, [], [], some (.ints [4])⟩,
     ⟨"order_r_option", .chr, [1], [], some (.chars ("r3_flux_constraint".toList ++ List.replicate 32 ' '))⟩] ++
    intQ.map (fun q => ⟨q.1, .int, [], [], some (.ints [3])⟩) ++
    (fltQ ⟨true, true, true⟩).map (fun q => ⟨q.1, .flt, [], [], some (.flts [7])⟩) ++
    (vecQ ⟨true, true, true⟩).map (fun q => ⟨q.1, .flt, [0], [], some (.flts [1, 2, 3, 4])⟩)⟩

theorem exFortran : IsFortran exFile 4 "r3_flux_constraint" where
  names := by decide +kernel
  pos := by decide
  plain := by
    have h : ("r3_flux_constraint".toList.all fun c => c != ' ' && c != '\x00') = true := by decide +kernel
    intro c hc
    simpa using List.all_eq_true.mp h c hc
  short := by decide +kernel
  nphi := ⟨⟨"N_phi", .int, [], [], some (.ints [4])⟩, by simp [exFile], rfl, rfl⟩
  text := ⟨⟨"order_r_option", .chr, [1], [], some (.chars ("r3_flux_constraint".toList ++ List.replicate 32 ' '))⟩,
    by simp [exFile], rfl, by decide +kernel⟩
  ints := fun q hq => ⟨3, ⟨q.1, .int, [], [], some (.ints [3])⟩,
    List.mem_append_left _ (List.mem_append_left _ (List.mem_append_right _ (List.mem_map.mpr ⟨q, hq, rfl⟩))), rfl, rfl⟩
  flts := fun q hq => ⟨7, ⟨q.1, .flt, [], [], some (.flts [7])⟩,
    List.mem_append_left _ (List.mem_append_right _ (List.mem_map.mpr ⟨q, hq, rfl⟩)), rfl, rfl⟩
  vecs := fun q hq => ⟨[1, 2, 3, 4], ⟨⟨q.1, .flt, [0], [], some (.flts [1, 2, 3, 4])⟩,
    List.mem_append_right _ (List.mem_map.mpr ⟨q, hq, rfl⟩), rfl, rfl⟩, rfl⟩

/-- An object before reading. -/
def exObj : Obj Int :=
  ⟨⟨false, false, false⟩, fun a => if a ∈ ["nphi", "nfp", "sG", "spsi", "helicity", "max_newton_iterations",
    "max_linesearch_iterations"] then .ints [0] else .flts [5]⟩

theorem exObj_fits : ∀ p ∈ qscMembers (orders "r3_flux_constraint"), p.2 = .int ∨ p.2 = .flt →
    Fits exObj.mem (sizes []) p.1 p.2 := by
  have h : (qscMembers (orders "r3_flux_constraint")).all (fun p =>
      (decide (p.2 ≠ .int) || decide (p.1 ∈ ["nphi", "nfp", "sG", "spsi", "helicity", "max_newton_iterations",
        "max_linesearch_iterations"])) &&
      (decide (p.2 ≠ .flt) || decide (p.1 ∉ ["nphi", "nfp", "sG", "spsi", "helicity", "max_newton_iterations",
        "max_linesearch_iterations"]))) = true := by decide +kernel
  intro p hp hs
  have := List.all_eq_true.mp h p hp
  simp only [Bool.and_eq_true, Bool.or_eq_true, decide_eq_true_eq] at this
  rcases hs with hs | hs
  · rw [hs]
    exact ⟨0, if_pos (this.1.resolve_left fun h => h hs)⟩
  · rw [hs]
    exact ⟨5, if_neg (this.2.resolve_left fun h => h hs)⟩

/-- With a zero byte behind the array the file is read: five grid points, the axis with a zero at the last. -/
example : ∃ o', readF 0 (fun x => 12 / x) (List.replicate 50 'x' ++ ['y', '\x00']) exFile exObj = .ok o' ∧
    o'.mem "nphi" = .ints [5] ∧ o'.mem "Z0" = .flts [1, 2, 3, 4, 0] ∧ o'.mem "sG" = .ints [3] ∧
    o'.mem "L_grad_grad_B" = .flts [12, 6, 4, 3, 0] ∧ o'.mem "X3c1" = .flts [1, 2, 3, 4, 0] := by
  obtain ⟨o', h1, -, -, h4, h5, h6, h7, -⟩ := fortran_read exFortran 0 (fun x => 12 / x) exObj exObj_fits
    (List.replicate 50 'x') ['y', '\x00'] (by simp) (by simp)
  have hv : ∀ q ∈ vecQ ⟨true, true, true⟩, Holds exFile q.1 (.flts [1, 2, 3, 4]) := fun q hq =>
    ⟨⟨q.1, .flt, [0], [], some (.flts [1, 2, 3, 4])⟩,
      List.mem_append_right _ (List.mem_map.mpr ⟨q, hq, rfl⟩), rfl, rfl⟩
  refine ⟨o', h1, h4, h6 ("z0", "Z0") (by decide +kernel) _ (hv ("z0", "Z0") (by decide +kernel)), ?_, ?_,
    h6 ("X3c1", "X3c1") (by decide +kernel) _ (hv ("X3c1", "X3c1") (by decide +kernel))⟩
  · exact h5 ("sign_G", "sG") (by decide +kernel) _ ⟨⟨"sign_G", .int, [], [], some (.ints [3])⟩,
      List.mem_append_left _ (List.mem_append_left _ (List.mem_append_right _
        (List.mem_map.mpr ⟨("sign_G", "sG"), by decide, rfl⟩))), rfl, rfl⟩
  · exact h7 (by decide +kernel) _ (hv ("grad_grad_B_inverse_scale_length_vs_zeta", "L_grad_grad_B_inverse")
      (by decide +kernel))

/-- With nothing behind the array the behaviour is undefined. -/
example : readF 0 (fun x => 12 / x) (List.replicate 50 'x') exFile exObj
    = .error (.undefined "nc_string has no end") :=
  overread exFortran 0 _ exObj (y := 0) rfl _ (by simp)

theorem exPlain : Plain ['r', '1'] ∧ Plain ['.', '1'] := by
  have h : ∀ l ∈ [['r', '1'], ['.', '1']], (l.all fun c => c != ' ' && c != '\x00') = true := by decide
  exact ⟨fun c hc => by simpa using List.all_eq_true.mp (h _ (by simp)) c hc,
    fun c hc => by simpa using List.all_eq_true.mp (h _ (by simp)) c hc⟩

/-- The text `r1` of two characters may be read as `r1.1`. -/
example : ∃ stack : List Char, stack.length = 50 ∧
    getText (⟨[], [⟨"order_r_option", .chr, [0], [], some (.chars ['r', '1'])⟩]⟩ : File Int) stack "order_r_option"
      = .ok ['r', '1', '.', '1'] :=
  stale_memory (l := ['r', '1']) (s := ['.', '1']) (by simp) ⟨_, List.mem_singleton.mpr rfl, rfl, rfl⟩
    exPlain.1 exPlain.2 (by simp)

/-- The same text with its zero byte. -/
example (stack : List Char) :
    getText (⟨[], [⟨"order_r_option", .chr, [0], [], some (.chars ['r', '1', '\x00'])⟩]⟩ : File Int) stack
      "order_r_option" = .error (.nc "std::length_error") :=
  no_blank (f := ⟨[], [⟨"order_r_option", .chr, [0], [], some (.chars ['r', '1', '\x00'])⟩]⟩) (l := ['r', '1'])
    (w := []) (by simp) ⟨_, List.mem_singleton.mpr rfl, rfl, rfl⟩
    exPlain.1 (by simp) stack

end Qsc.FortranFile
