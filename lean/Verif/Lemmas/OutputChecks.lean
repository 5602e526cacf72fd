import Verif.Lemmas.Output

/-!
# The lists of calls

Finite facts about the lists of calls and members, for all values of the flags.
-/

namespace Qsc.Output
open Qsc.Netcdf Qsc.Spec.Netcdf Qsc.Spec.Output

set_option maxRecDepth 100000

theorem ite_sublist {α : Type} (b : Bool) {l l' : List α} (h : l.Sublist l') : (if b then l else []).Sublist l' := by
  cases b
  · exact List.nil_sublist _
  · exact h

/-! ## Local variables -/

def qscLocals : List (String × Shape) :=
  all .int ["at_least_order_r2_int", "order_r2p1_int", "order_r3_int"] ++ all .str ["general_option"]

def scanLocals : List (String × Shape) :=
  all .int ["at_least_order_r2_int", "n_scan_int", "keep_all_int", "deterministic_int"] ++ all .str ["general_option"]

def multioptLocals : List (String × Shape) :=
  all .int ["n_scan_int", "keep_all_int"] ++ all .str ["general_option"]

/-! ## All calls are among those with all flags set -/

theorem qscCalls_sublist (fl : Flags) : (qscCalls fl).Sublist (qscCalls ⟨true, true, true⟩) := by
  unfold qscCalls
  simp only [if_true]
  repeat' first
    | with_reducible exact List.Sublist.refl _
    | with_reducible exact ite_sublist _ (List.Sublist.refl _)
    | with_reducible apply List.Sublist.append

theorem scanCalls_sublist (r2 k : Bool) : (scanCalls r2 k).Sublist (scanCalls true false) := by
  unfold scanCalls
  simp only [if_true, Bool.not_false]
  repeat' first
    | with_reducible exact List.Sublist.refl _
    | with_reducible exact ite_sublist _ (List.Sublist.refl _)
    | with_reducible apply List.Sublist.append
    | with_reducible apply ite_sublist

theorem multioptCalls_sublist (k : Bool) : (multioptCalls k).Sublist (multioptCalls false) := by
  unfold multioptCalls
  simp only [if_true, Bool.not_false]
  repeat' first
    | with_reducible exact List.Sublist.refl _
    | with_reducible exact ite_sublist _ (List.Sublist.refl _)
    | with_reducible apply List.Sublist.append

theorem gridVectors_sublist (fl : Flags) : (gridVectors fl).Sublist (gridVectors ⟨true, true, true⟩) := by
  unfold gridVectors
  simp only [if_true]
  repeat' first
    | with_reducible exact List.Sublist.refl _
    | with_reducible exact ite_sublist _ (List.Sublist.refl _)
    | with_reducible apply List.Sublist.append

theorem optCalls_renum (ax it : Nat) :
    optCalls ax it = (optCalls 0 1).map (Call.renum fun k => if k = 0 then ax else it) := by
  simp [optCalls, ints, flts, vecs, intVecs, arrays, Output.int, Output.flt, Output.vec, Call.renum]

/-! ## Names -/

theorem optNames : ((qscCalls ⟨true, true, true⟩).map Call.name ++ (optCalls 0 1).map Call.name).Nodup := by
  decide +kernel

theorem scanNames_all : ((scanCalls true false).map Call.name).Nodup := by decide +kernel

theorem multioptNames_all : ((multioptCalls false).map Call.name).Nodup := by decide +kernel

theorem qscNames (fl : Flags) : ((qscCalls fl).map Call.name).Nodup :=
  (List.nodup_append.mp optNames).1.sublist ((qscCalls_sublist fl).map _)

theorem scanNames (r2 k : Bool) : ((scanCalls r2 k).map Call.name).Nodup :=
  scanNames_all.sublist ((scanCalls_sublist r2 k).map _)

theorem multioptNames (k : Bool) : ((multioptCalls k).map Call.name).Nodup :=
  multioptNames_all.sublist ((multioptCalls_sublist k).map _)

def Call.bears (c : Call) : Bool := Bears c.name c.addr

theorem qscBears : (qscCalls ⟨true, true, true⟩).all Call.bears = true := by decide +kernel

theorem optBears : ((optCalls 0 1).filter fun c => c.name != "iter_curvature_term").all Call.bears = true := by
  decide +kernel

theorem scanBears : (scanCalls true false).all Call.bears = true := by decide +kernel

theorem multioptBears : (multioptCalls false).all Call.bears = true := by decide +kernel

/-! ## Types and sizes -/

theorem qscFits : ∀ fl, (qscCalls fl).all (Call.fits (qscLocals ++ qscMembers fl) 3 3) = true := by
  rintro ⟨_ | _, _ | _, _ | _⟩ <;> decide +kernel

theorem optFits : (optCalls 0 1).all (Call.fits optMembers 2 1) = true := by decide +kernel

theorem scanFits : (scanCalls true false).all (Call.fits (scanLocals ++ scanMembers) 3 2) = true := by
  decide +kernel

theorem multioptFits : (multioptCalls false).all (Call.fits (multioptLocals ++ multioptMembers) 2 1) = true := by
  decide +kernel

end Qsc.Output
