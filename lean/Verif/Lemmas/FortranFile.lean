import Verif.Model.FortranFile
import Verif.Spec.FortranFile
import Verif.Lemmas.OutputRead

/-!
# Lemmas: reading a file of the Fortran version
-/

namespace Qsc.FortranFile
open Qsc.Netcdf Qsc.Output Qsc.Spec.Output Qsc.Spec.FortranFile

variable {F : Type}

/-! ## Tables -/

theorem reads_nodup : ∀ fl, ((fortranReads fl).map Prod.snd).Nodup := by
  rintro ⟨_ | _, _ | _, _ | _⟩ <;> decide +kernel

theorem reads_sorted : ∀ fl, (intQ ++ fltQ fl ++ vecQ fl).all (fun q => decide (q ∈ fortranReads fl)) = true := by
  rintro ⟨_ | _, _ | _, _ | _⟩ <;> decide +kernel

theorem reads_all : ∀ fl, (fortranReads fl).all (fun q => decide (q ∈ intQ ++ fltQ fl ++ vecQ fl)) = true := by
  rintro ⟨_ | _, _ | _, _ | _⟩ <;> decide +kernel

theorem ints_shape : ∀ fl, intQ.all (fun q => has (qscMembers fl) .int q.2 && q.2 != "nphi") = true := by
  rintro ⟨_ | _, _ | _, _ | _⟩ <;> decide +kernel

theorem flts_shape : ∀ fl, (fltQ fl).all (fun q => has (qscMembers fl) .flt q.2 && q.2 != "nphi") = true := by
  rintro ⟨_ | _, _ | _, _ | _⟩ <;> decide +kernel

theorem vecs_shape : ∀ fl, (vecQ fl).all (fun q => has (qscMembers fl) (.flts [0]) q.2) = true := by
  rintro ⟨_ | _, _ | _, _ | _⟩ <;> decide +kernel

theorem special_not_read : ∀ fl, ["nphi", "order_r_option", "L_grad_grad_B"].all
    (fun a => decide (a ∉ (fortranReads fl).map Prod.snd)) = true := by
  rintro ⟨_ | _, _ | _, _ | _⟩ <;> decide +kernel

theorem inverse_read : ∀ fl, (!fl.r2 || decide (("grad_grad_B_inverse_scale_length_vs_zeta", "L_grad_grad_B_inverse")
    ∈ vecQ fl)) = true := by
  rintro ⟨_ | _, _ | _, _ | _⟩ <;> decide +kernel

theorem mem_reads (fl : Flags) (q : String × String) :
    q ∈ fortranReads fl ↔ q ∈ intQ ∨ q ∈ fltQ fl ∨ q ∈ vecQ fl := by
  have h1 : q ∈ intQ ++ fltQ fl ++ vecQ fl ↔ q ∈ intQ ∨ q ∈ fltQ fl ∨ q ∈ vecQ fl := by
    rw [List.mem_append, List.mem_append, or_assoc]
  rw [← h1]
  exact ⟨fun h => of_decide_eq_true (List.all_eq_true.mp (reads_all fl) q h),
    fun h => of_decide_eq_true (List.all_eq_true.mp (reads_sorted fl) q h)⟩

/-! ## Variables -/

theorem find_holds {f : File F} (hn : (f.vars.map (·.name)).Nodup) {name : String} {d : Data F} (h : Holds f name d) :
    ∃ v, (f.vars.find? fun w => w.name == name) = some v ∧ v.data = some d := by
  obtain ⟨v, hv, rfl, hd⟩ := h
  refine ⟨v, ?_, hd⟩
  generalize f.vars = l at *
  induction l with
  | nil => simp at hv
  | cons w l ih =>
    rw [List.map_cons, List.nodup_cons] at hn
    rcases List.mem_cons.mp hv with rfl | hv
    · simp
    · have : w.name ≠ v.name := fun e => hn.1 (e ▸ List.mem_map_of_mem hv)
      rw [List.find?_cons_of_neg (by simpa using this)]
      exact ih hn.2 hv

theorem holds_unique {f : File F} (hn : (f.vars.map (·.name)).Nodup) {name : String} {d d' : Data F}
    (h : Holds f name d) (h' : Holds f name d') : d = d' := by
  obtain ⟨v, hv, hd⟩ := find_holds hn h
  obtain ⟨v', hv', hd'⟩ := find_holds hn h'
  rw [hv] at hv'
  injection hv' with e
  rw [← e, hd] at hd'
  exact Option.some.inj hd'

theorem getVar_int {f : File F} (hn : (f.vars.map (·.name)).Nodup) {name : String} {x y : Int}
    (h : Holds f name (.ints [x])) : getVar f name (.ints [y]) = .ok (.ints [x]) := by
  obtain ⟨v, hv, hd⟩ := find_holds hn h
  unfold getVar
  simp [hv, hd]

theorem getVar_flts {f : File F} (hn : (f.vars.map (·.name)).Nodup) {name : String} {l t : List F}
    (h : Holds f name (.flts l)) (hl : l.length ≤ t.length) (ht : t ≠ []) :
    getVar f name (.flts t) = .ok (.flts (l ++ t.drop l.length)) := by
  obtain ⟨v, hv, hd⟩ := find_holds hn h
  unfold getVar
  simp [hv, hd, ht, hl]

/-- A variable that was read is in the file. -/
theorem getVar_holds {f : File F} {name : String} {t d : Data F} (h : getVar f name t = .ok d) :
    ∃ e, Holds f name e := by
  unfold getVar at h
  split at h
  · exact absurd h (by simp)
  · rename_i v hv
    have hm := List.mem_of_find?_eq_some hv
    have hnm := List.find?_some hv
    cases hd : v.data with
    | none => rw [hd] at h; simp at h
    | some e => exact ⟨e, v, hm, by simpa using hnm, hd⟩

/-! ## The calls of `get` -/

theorem getAll {f : File F} (l : List (String × String)) {m : Mem F} (hn : (l.map Prod.snd).Nodup)
    (h : ∀ q ∈ l, ∃ d, getVar f q.1 (m q.2) = .ok d) :
    ∃ m', l.foldlM (getAs f) m = .ok m' ∧ (∀ q ∈ l, getVar f q.1 (m q.2) = .ok (m' q.2)) ∧
      ∀ a, a ∉ l.map Prod.snd → m' a = m a := by
  induction l generalizing m with
  | nil => exact ⟨m, rfl, by simp, fun a _ => rfl⟩
  | cons q l ih =>
    rw [List.map_cons, List.nodup_cons] at hn
    obtain ⟨d, hd⟩ := h q List.mem_cons_self
    have hk : ∀ p ∈ l, set m q.2 d p.2 = m p.2 := fun p hp =>
      set_ne _ _ fun e => hn.1 (e ▸ List.mem_map_of_mem hp)
    obtain ⟨m', h2, h3, h4⟩ := ih (m := set m q.2 d) hn.2 (fun p hp => by
      rw [hk p hp]
      exact h p (List.mem_cons_of_mem _ hp))
    refine ⟨m', ?_, ?_, ?_⟩
    · have ha : getAs f m q = .ok (set m q.2 d) := by
        unfold getAs
        rw [hd]
      rw [List.foldlM_cons, ha]
      exact h2
    · intro p hp
      rcases List.mem_cons.mp hp with rfl | hp
      · rw [h4 _ hn.1, set_eq]
        exact hd
      · rw [← hk p hp]
        exact h3 p hp
    · intro a ha
      rw [List.map_cons, List.mem_cons, not_or] at ha
      rw [h4 a ha.2, set_ne _ _ ha.1]

theorem getAll_holds {f : File F} (l : List (String × String)) {m m' : Mem F} (h : l.foldlM (getAs f) m = .ok m') :
    ∀ q ∈ l, ∃ d, Holds f q.1 d := by
  induction l generalizing m with
  | nil => simp
  | cons q l ih =>
    rw [List.foldlM_cons] at h
    unfold getAs at h
    cases hg : getVar f q.1 (m q.2) with
    | error e =>
      rw [hg] at h
      exact absurd h (by intro h; cases h)
    | ok d =>
      rw [hg] at h
      intro p hp
      rcases List.mem_cons.mp hp with rfl | hp
      · exact getVar_holds hg
      · exact ih (m := set m q.2 d) h p hp

/-! ## Text -/

theorem takeWhile_all {p : Char → Bool} : ∀ {l : List Char} (r : List Char), (∀ c ∈ l, p c = true) →
    (l ++ r).takeWhile p = l ++ r.takeWhile p
  | [], r, _ => rfl
  | c :: l, r, h => by
    rw [List.cons_append, List.takeWhile_cons, if_pos (h c List.mem_cons_self),
      takeWhile_all r fun d hd => h d (List.mem_cons_of_mem _ hd)]
    rfl

theorem takeWhile_short {p : Char → Bool} {l : List Char} {c : Char} (hc : c ∈ l) (hp : p c = false) :
    (l.takeWhile p).length < l.length := by
  induction l with
  | nil => simp at hc
  | cons d l ih =>
    rw [List.takeWhile_cons]
    split
    · rename_i hd
      rcases List.mem_cons.mp hc with rfl | hc
      · rw [hp] at hd; exact absurd hd (by simp)
      · simpa using ih hc
    · simp

theorem first_of_mem {c : Char} : ∀ {l : List Char}, c ∈ l → ∃ r w, l = r ++ c :: w ∧ ∀ d ∈ r, d ≠ c
  | d :: l, h => by
    by_cases e : d = c
    · exact ⟨[], l, by rw [e]; rfl, by simp⟩
    · rcases List.mem_cons.mp h with h | h
      · exact absurd h.symm e
      · obtain ⟨r, w, h1, h2⟩ := first_of_mem h
        refine ⟨d :: r, w, by rw [h1]; rfl, ?_⟩
        intro x hx
        rcases List.mem_cons.mp hx with rfl | hx
        · exact e
        · exact h2 x hx

theorem plain_noZero {l : List Char} (h : Plain l) : ∀ c ∈ l, (c != '\x00') = true := fun c hc => by
  simpa using (h c hc).2

theorem plain_noBlank {l : List Char} (h : Plain l) : ∀ c ∈ l, (c != ' ') = true := fun c hc => by
  simpa using (h c hc).1

/-- The text of the file followed by what is left in memory, when that begins with plain characters `s`, a
blank, some `r` without a zero byte, and a zero byte. -/
theorem getText_ok {f : File F} {stack l s r w : List Char} {name : String}
    (hn : (f.vars.map (·.name)).Nodup) (h : Holds f name (.chars l)) (hl : l.length ≤ 50)
    (hb : l ++ stack.drop l.length = s ++ ' ' :: (r ++ '\x00' :: w)) (hs : Plain s) (hr : ∀ c ∈ r, c ≠ '\x00') :
    getText f stack name = .ok s := by
  obtain ⟨v, hv, hd⟩ := find_holds hn h
  have e1 : (s ++ ' ' :: (r ++ '\x00' :: w)).takeWhile (fun c => c != '\x00') = s ++ ' ' :: r := by
    rw [takeWhile_all _ (plain_noZero hs), List.takeWhile_cons, if_pos (by decide),
      takeWhile_all _ (fun c hc => by simpa using hr c hc)]
    simp
  have e2 : (s ++ ' ' :: r).takeWhile (fun c => c != ' ') = s := by
    rw [takeWhile_all _ (plain_noBlank hs)]
    simp
  unfold getText
  rw [hv]
  simp only [hd, hb]
  rw [if_neg (by omega), e1, if_neg (by simp), e2, if_neg (by simp)]

theorem getText_holds {f : File F} {stack t : List Char} {name : String} (h : getText f stack name = .ok t) :
    ∃ l, Holds f name (.chars l) ∧ l.length ≤ 50 := by
  unfold getText at h
  split at h
  · exact absurd h (by simp)
  · rename_i v hv
    have hm := List.mem_of_find?_eq_some hv
    have hnm := List.find?_some hv
    cases hd : v.data with
    | none => rw [hd] at h; simp at h
    | some e =>
      rw [hd] at h
      cases e with
      | chars l =>
        dsimp only at h
        by_cases hl : 50 < l.length
        · rw [if_pos hl] at h; simp at h
        · exact ⟨l, ⟨v, hm, by simpa using hnm, hd⟩, by omega⟩
      | ints l => simp at h
      | flts l => simp at h

theorem flagsOf_eq (s : String) : flagsOf s.toList = orders s := by
  have h : ∀ a b : String, (a.toList == b.toList) = (a == b) := fun a b => by
    rw [Bool.eq_iff_iff]
    simp [String.toList_inj]
  unfold flagsOf orders
  simp only [h]
  rfl

end Qsc.FortranFile
