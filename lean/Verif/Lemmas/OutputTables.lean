import Verif.Lemmas.OutputChecks
import Verif.Lemmas.OutputSaved

/-!
# The tables of members

Finite facts about the tables and about the arrays that are allocated.
-/

namespace Qsc.Output
open Qsc.Netcdf Qsc.Spec.Netcdf Qsc.Spec.Output

set_option maxRecDepth 100000

/-! ## Reading and allocating -/

/-- All names of the arrays that are allocated. -/
def allocNames (fl : Flags) : List String :=
  gridVectors fl ++ ["d_d_phi", "d_d_varphi", "work_matrix", "grad_B_tensor"] ++
  (if fl.r2 then ["r2_matrix", "r2_rhs", "grad_grad_B_tensor"] else []) ++ ["quadrant", "ipiv"] ++
  (if fl.r2 then ["r2_ipiv"] else [])

theorem allocNames_sublist (fl : Flags) : (allocNames fl).Sublist (allocNames ⟨true, true, true⟩) := by
  unfold allocNames
  simp only [if_true]
  repeat' first
    | with_reducible exact gridVectors_sublist fl
    | with_reducible exact List.Sublist.refl _
    | with_reducible exact ite_sublist _ (List.Sublist.refl _)
    | with_reducible apply List.Sublist.append

theorem qscMembers_sublist (fl : Flags) : (qscMembers fl).Sublist (qscMembers ⟨true, true, true⟩) := by
  unfold qscMembers
  simp only [if_true]
  repeat' first
    | with_reducible exact List.Sublist.refl _
    | with_reducible exact ite_sublist _ (List.Sublist.refl _)
    | with_reducible apply List.Sublist.append

theorem allocNames_nodup_all : (allocNames ⟨true, true, true⟩).Nodup := by decide +kernel

theorem allocNames_nodup (fl : Flags) : (allocNames fl).Nodup := allocNames_nodup_all.sublist (allocNames_sublist fl)

theorem gridVectors_named : ∀ fl, named (qscMembers fl) [.flts [0]] = gridVectors fl := by
  rintro ⟨_ | _, _ | _, _ | _⟩ <;> decide +kernel

theorem squares_named : ∀ fl, named (qscMembers fl) [.flts [0, 0]] = ["d_d_phi", "d_d_varphi"] := by
  rintro ⟨_ | _, _ | _, _ | _⟩ <;> decide +kernel

theorem tensor_named : ∀ fl, named (qscMembers fl) [.flts [0, 2, 2]] = ["grad_B_tensor"] := by
  rintro ⟨_ | _, _ | _, _ | _⟩ <;> decide +kernel

theorem tensor2_named : ∀ fl, named (qscMembers fl) [.flts [0, 2, 2, 2]] = if fl.r2 then ["grad_grad_B_tensor"] else [] := by
  rintro ⟨_ | _, _ | _, _ | _⟩ <;> decide +kernel

/-- Scalars, strings and axis coefficients are not allocated. -/
theorem others_not_allocated_all :
    (named (qscMembers ⟨true, true, true⟩) [.int, .flt, .str, .flts [1], .atLeast [1]]).all
      (fun a => decide (a ∉ allocNames ⟨true, true, true⟩)) = true := by decide +kernel

theorem others_not_allocated {fl : Flags} {p : String × Shape} (hp : p ∈ qscMembers fl)
    (hs : p.2 ∈ ([.int, .flt, .str, .flts [1], .atLeast [1]] : List Shape)) : p.1 ∉ allocNames fl := by
  have h := List.all_eq_true.mp others_not_allocated_all p.1 (named_mem ((qscMembers_sublist fl).subset hp) hs)
  exact fun hm => (of_decide_eq_true h) ((allocNames_sublist fl).subset hm)

/-- There are no other shapes in the table. -/
theorem shapes : ∀ fl, (qscMembers fl).all (fun p => decide (p.2 ∈ ([.int, .flt, .str, .flts [1], .atLeast [1],
    .flts [0], .flts [0, 0], .flts [0, 2, 2], .flts [0, 2, 2, 2]] : List Shape))) = true := by
  rintro ⟨_ | _, _ | _, _ | _⟩ <;> decide +kernel

theorem restoredShapes : ∀ fl, (restored fl).all (fun a =>
    has (qscMembers fl) .int a || has (qscMembers fl) .flt a || has (qscMembers fl) (.flts [0]) a) = true := by
  rintro ⟨_ | _, _ | _, _ | _⟩ <;> decide +kernel

theorem nphi_not_restored : "nphi" ∉ restored ⟨true, true, true⟩ := by decide +kernel

theorem qscMembers_nodup_all : ((qscMembers ⟨true, true, true⟩).map (·.1)).Nodup := by decide +kernel

theorem qscMembers_nodup (fl : Flags) : ((qscMembers fl).map (·.1)).Nodup :=
  qscMembers_nodup_all.sublist ((qscMembers_sublist fl).map _)

theorem optMembers_nodup : (optMembers.map (·.1)).Nodup := by decide +kernel

theorem scanMembers_nodup : (scanMembers.map (·.1)).Nodup := by decide +kernel

theorem multioptMembers_nodup : (multioptMembers.map (·.1)).Nodup := by decide +kernel

/-- Entries of the table that do not depend on the flags. -/
def fixed : List (String × Shape) :=
  [("nphi", .int), ("order_r_option", .str), ("R0c", .flts [1]), ("R0s", .atLeast [1]), ("Z0c", .atLeast [1]),
   ("Z0s", .atLeast [1])]

theorem fixed_members : ∀ fl, fixed.all (fun p => has (qscMembers fl) p.2 p.1) = true := by
  rintro ⟨_ | _, _ | _, _ | _⟩ <;> decide +kernel

theorem fixed_mem (fl : Flags) {p : String × Shape} (hp : p ∈ fixed) : p ∈ qscMembers fl :=
  has_mem (List.all_eq_true.mp (fixed_members fl) p hp)

theorem qscNphi : ∀ fl, int "nphi" "nphi" ∈ qscCalls fl := by
  rintro ⟨_ | _, _ | _, _ | _⟩ <;> decide +kernel

theorem qscNoBig : (qscCalls ⟨true, true, true⟩).all (fun c => decide (c ≠ .big c.name c.addr)) = true := by
  decide +kernel

theorem members_not_local : (qscMembers ⟨true, true, true⟩).all (fun p => decide (p.1 ∉
    ["general_option", "at_least_order_r2_int", "order_r2p1_int", "order_r3_int"])) = true := by decide +kernel

/-- The members `restored` and `alsoSaved` are members of the table. -/
theorem saved_members : ∀ fl, ("nphi" :: restored fl ++ alsoSaved).all (fun a => (qscMembers fl).any fun p => p.1 == a) = true := by
  rintro ⟨_ | _, _ | _, _ | _⟩ <;> decide +kernel

theorem axis_not_restored : (["R0c", "R0s", "Z0c", "Z0s", "order_r_option"] : List String).all
    (fun a => decide (a ∉ restored ⟨true, true, true⟩)) = true := by decide +kernel

theorem flagCalls : ∀ fl, int "at_least_order_r2" "at_least_order_r2_int" ∈ qscCalls fl ∧
    int "order_r2.1" "order_r2p1_int" ∈ qscCalls fl ∧ int "order_r3" "order_r3_int" ∈ qscCalls fl := by
  rintro ⟨_ | _, _ | _, _ | _⟩ <;> decide +kernel

end Qsc.Output
