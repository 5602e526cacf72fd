import Verif.Model.ScanParams

/-!
# What the scanned parameters of a grid point mean
-/

namespace Qsc.Spec.ScanParams
open Qsc.ScanParams

/-- The value at a place of a stage, if the place exists. -/
def valueAt {F : Type} (s : Stage F) : Slot → Option F
  | .num x => some (s.num x)
  | .R0c k => s.R0c[k]?
  | .Z0s k => s.Z0s[k]?

/-- The weights, targets and bounds of the objective function that can be scanned. -/
def settings : List String :=
  ["max_d2_volume_d_psi2", "min_DMerc_times_r2", "target_axis_length", "target_iota",
   "weight_B20", "weight_B20_mean", "weight_DMerc_times_r2", "weight_XY2", "weight_XY2Prime",
   "weight_XY2PrimePrime", "weight_XY3", "weight_XY3Prime", "weight_XY3PrimePrime", "weight_Z2",
   "weight_Z2Prime", "weight_axis_length", "weight_d2_volume_d_psi2", "weight_elongation",
   "weight_grad_B", "weight_grad_grad_B", "weight_iota", "weight_r_singularity",
   "weight_standard_deviation_of_R"]

/-- A parameter name and the place it stands for, when axis modes 1 to `nm - 1` exist. -/
inductive Names (nm : Nat) : String → Slot → Prop
  | R0c (k : Nat) : 1 ≤ k → k < nm → Names nm ("R0c" ++ toString k) (.R0c k)
  | Z0s (k : Nat) : 1 ≤ k → k < nm → Names nm ("Z0s" ++ toString k) (.Z0s k)
  | setting (x : String) : x ∈ settings → Names nm x (.num x)
  | etaBar : Names nm "eta_bar" (.num "q.eta_bar")
  | p2 : Names nm "p2" (.num "q.p2")
  | B2c : Names nm "B2c" (.num "q.B2c")
  | B2s : Names nm "B2s" (.num "q.B2s")

/-- Places that are initial conditions: only stage 0 may set them. -/
def InitialCondition : Slot → Prop
  | .R0c _ => True
  | .Z0s _ => True
  | .num x => x = "q.eta_bar" ∨ x = "q.p2" ∨ x = "q.B2c" ∨ x = "q.B2s"

/-- A parameter concerns a stage. -/
def Concerns (stage : Int) (j : Nat) : Prop := stage < 0 ∨ stage = j

/-- A parameter that can be set in a list of stages. -/
structure Accepts {F : Type} (nm : Nat) (ss : List (Stage F)) (p : Param F) : Prop where
  exist : p.stage < ss.length
  named : ss = [] ∨ ∃ slot, Names nm p.name slot ∧
    (InitialCondition slot → ∀ j, j < ss.length → Concerns p.stage j → j = 0) ∧
    ∀ j s, Concerns p.stage j → ss[j]? = some s → (valueAt s slot).isSome

end Qsc.Spec.ScanParams
