import Verif.Lemmas.Output

/-!
# What the lists of calls save

Finite facts about the lists of calls and members, for all values of the flags.
-/

namespace Qsc.Output
open Qsc.Netcdf Qsc.Spec.Netcdf Qsc.Spec.Output

set_option maxRecDepth 100000

/-- Some call writes the member under its own name. -/
def saves (cs : List Call) (a : String) : Bool := cs.any fun c => c.name == a && c.addr == a

theorem saves_mem {cs : List Call} {a : String} (h : saves cs a = true) : ∃ c ∈ cs, c.name = a ∧ c.addr = a := by
  obtain ⟨c, hc, h⟩ := List.any_eq_true.mp h
  simp only [Bool.and_eq_true, beq_iff_eq] at h
  exact ⟨c, hc, h⟩

theorem qscSaves : ∀ fl, (restored fl ++ alsoSaved).all (saves (qscCalls fl)) = true := by
  rintro ⟨_ | _, _ | _, _ | _⟩ <;> decide +kernel

/-- Members of which only the beginning may be written. -/
def partly : List String := ["R0s", "Z0c", "Z0s"]

theorem qscWhole : ∀ fl, (qscCalls fl).all (fun c =>
    c.whole (all .int ["at_least_order_r2_int", "order_r2p1_int", "order_r3_int"] ++ all .str ["general_option"] ++
      qscMembers fl) 3 || decide (c.addr ∈ partly)) = true := by
  rintro ⟨_ | _, _ | _, _ | _⟩ <;> decide +kernel

theorem restored_not_partly : (restored ⟨true, true, true⟩ ++ alsoSaved).all (fun a => decide (a ∉ partly)) = true := by
  decide +kernel

/-- Names with one of the given shapes. -/
def named (t : List (String × Shape)) (ss : List Shape) : List String := (t.filter fun p => decide (p.2 ∈ ss)).map (·.1)

theorem named_mem {t : List (String × Shape)} {ss : List Shape} {p : String × Shape} (hp : p ∈ t) (hs : p.2 ∈ ss) :
    p.1 ∈ named t ss :=
  List.mem_map_of_mem (List.mem_filter.mpr ⟨hp, by simpa using hs⟩)

/-- Some call writes all of the member under its own name. -/
def savesWhole (t : List (String × Shape)) (n : Nat) (cs : List Call) (a : String) : Bool :=
  cs.any fun c => c.name == a && c.addr == a && c.whole t n

theorem savesWhole_mem {t : List (String × Shape)} {n : Nat} {cs : List Call} {a : String}
    (h : savesWhole t n cs a = true) : ∃ c ∈ cs, c.name = a ∧ c.addr = a ∧ c.whole t n = true := by
  obtain ⟨c, hc, h⟩ := List.any_eq_true.mp h
  simp only [Bool.and_eq_true, beq_iff_eq] at h
  exact ⟨c, hc, h.1.1, h.1.2, h.2⟩

theorem scanSaves2 : (named scanMembers [.flts [2], .ints [2], .flts [1, 2]]).all
    (savesWhole scanMembers 3 (scanCalls true true)) = true := by decide +kernel

theorem scanSaves1 : ((named scanMembers [.flts [2], .ints [2], .flts [1, 2]]).filter fun a => decide (a ∉ secondOrder)).all
    (savesWhole scanMembers 3 (scanCalls false true)) = true := by decide +kernel

theorem multioptSaves : (named multioptMembers [.flts [1], .ints [1], .flts [0, 1]]).all
    (savesWhole multioptMembers 2 (multioptCalls true)) = true := by decide +kernel

/-- Some call writes the vector or array over all iterations under its own name. -/
def savesIter (cs : List Call) (a : String) : Bool :=
  decide (Call.op (.fltVec 1 a a "" "") ∈ cs ∨ Call.op (.intVec 1 a a "" "") ∈ cs ∨ Call.op (.nd [0, 1] a a "" "") ∈ cs)

theorem optSaves : ((named optMembers [.atLeast [1]]).filter fun a => a != "iter_curvature_term").all
    (fun a => decide (Call.op (.fltVec 1 a a "" "") ∈ optCalls 0 1)) = true := by decide +kernel

theorem optSaves2 : (named optMembers [.atLeast [0, 1]]).all
    (fun a => decide (Call.op (.nd [0, 1] a a "" "") ∈ optCalls 0 1)) = true := by decide +kernel

theorem optCurvature : Call.op (.fltVec 1 "iter_curvature_term" "iter_elongation_term" "" "") ∈ optCalls 0 1 := by
  decide +kernel

theorem optNoBig : (optCalls 0 1).all (fun c => decide (c ≠ .big c.name c.addr)) = true := by decide +kernel

theorem scan_not_local : scanMembers.all (fun p => decide (p.1 ∉
    ["general_option", "at_least_order_r2_int", "n_scan_int", "keep_all_int", "deterministic_int"])) = true := by
  decide +kernel

theorem multiopt_not_local : multioptMembers.all (fun p => decide (p.1 ∉
    ["general_option", "n_scan_int", "keep_all_int"])) = true := by decide +kernel

theorem scanAxis : has scanMembers (.flts [1]) "R0c_max" = true := by decide +kernel

theorem scanBigCalls : (scanCalls true false).all (fun c =>
    decide (c ≠ .big c.name c.addr) || decide (c.addr ∈ scanBigs)) = true := by decide +kernel

theorem multioptBigCalls : (multioptCalls false).all (fun c =>
    decide (c ≠ .big c.name c.addr) || decide (c.addr ∈ multioptBigs)) = true := by decide +kernel

theorem scanCalls_keep (r2 k : Bool) : (scanCalls r2 true).Sublist (scanCalls r2 k) := by
  cases k
  · unfold scanCalls
    simp only [Bool.not_true, Bool.not_false, if_true, Bool.false_eq_true, if_false]
    repeat' first
      | with_reducible exact List.Sublist.refl _
      | with_reducible exact List.nil_sublist _
      | with_reducible apply List.Sublist.append
  · exact List.Sublist.refl _

theorem multioptCalls_keep (k : Bool) : (multioptCalls true).Sublist (multioptCalls k) := by
  cases k
  · unfold multioptCalls
    simp only [Bool.not_true, Bool.not_false, if_true, Bool.false_eq_true, if_false]
    repeat' first
      | with_reducible exact List.Sublist.refl _
      | with_reducible exact List.nil_sublist _
      | with_reducible apply List.Sublist.append
  · exact List.Sublist.refl _

theorem has_append (u : List (String × Shape)) {t : List (String × Shape)} {s : Shape} {a : String}
    (h : has t s a = true) : has (u ++ t) s a = true := by
  unfold has at *
  rw [List.any_append, h, Bool.or_true]

theorem whole_append (u : List (String × Shape)) {t : List (String × Shape)} {n : Nat} {c : Call}
    (h : c.whole t n = true) : c.whole (u ++ t) n = true := by
  rcases c with o | ⟨nm, a⟩
  · cases o <;> simp only [Call.whole, Bool.and_eq_true] at * <;>
      first | exact has_append u h | exact ⟨h.1, has_append u h.2⟩ | exact h
  · exact h

end Qsc.Output
