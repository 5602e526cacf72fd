import Verif.Model.ScanGrid

/-!
# `multiopt_scan.cpp` 277-424: setting the scanned parameters of one grid point

`mo.opts` is a list of stages; a stage holds the numbers that the loop can set (by C++ member name
after `mo.opts[stage].`) and the two axis arrays.  Printing is left out.
-/

namespace Qsc.ScanParams

/-- The settings of one optimization stage (opt.hpp lines 28-59, the members assigned in
multiopt_scan.cpp lines 291-423). -/
structure Stage (F : Type) where
  num : String → F
  R0c : List F
  Z0s : List F

/-- A place that can be written (multiopt_scan.cpp lines 291-423). -/
inductive Slot
  | num (name : String)
  | R0c (k : Nat)
  | Z0s (k : Nat)
  deriving DecidableEq

/-- Failures: an exception, or writing outside an array (multiopt_scan.cpp lines 294-425). -/
inductive Err
  | throw (msg : String)
  | undefined (msg : String)
  deriving DecidableEq

variable {F : Type}

/-- Assignment to a place of a stage; `none` outside an array (multiopt_scan.cpp lines 294-423). -/
def Stage.write (s : Stage F) (v : F) : Slot → Option (Stage F)
  | .num x => some { s with num := fun y => if y = x then v else s.num y }
  | .R0c k => if k < s.R0c.length then some { s with R0c := s.R0c.set k v } else none
  | .Z0s k => if k < s.Z0s.length then some { s with Z0s := s.Z0s.set k v } else none

/-- `mo.opts[stage].place = val` (multiopt_scan.cpp lines 294-423). -/
def assign (ss : List (Stage F)) (stage : Nat) (slot : Slot) (v : F) :
    Except Err (List (Stage F)) :=
  match ss[stage]? with
  | none => .error (.undefined "opts index")
  | some s => match s.write v slot with
    | none => .error (.undefined "axis array index")
    | some s' => .ok (ss.set stage s')

/-- The parameters of a stage, in the order of the `else if` chain (307-397). -/
def settingNames : List String :=
  ["weight_iota", "target_iota", "weight_elongation", "weight_B20", "weight_r_singularity",
   "weight_grad_B", "weight_grad_grad_B", "weight_axis_length", "target_axis_length",
   "weight_standard_deviation_of_R", "weight_XY2", "weight_Z2", "weight_XY3", "weight_XY2Prime",
   "weight_XY2PrimePrime", "weight_Z2Prime", "weight_XY3Prime", "weight_XY3PrimePrime",
   "weight_B20_mean", "weight_d2_volume_d_psi2", "max_d2_volume_d_psi2", "weight_DMerc_times_r2",
   "min_DMerc_times_r2"]

/-- The initial conditions in the chain (399-417) and the member they set. -/
def startNames : List (String × String) :=
  [("eta_bar", "q.eta_bar"), ("p2", "q.p2"), ("B2c", "q.B2c"), ("B2s", "q.B2s")]

/-- Assignment of an initial condition, then the check of the stage (multiopt_scan.cpp lines
294-325). -/
def assignStart (ss : List (Stage F)) (stage : Nat) (slot : Slot) (v : F) :
    Except Err (List (Stage F)) :=
  match assign ss stage slot v with
  | .error e => .error e
  | .ok ss' => if stage ≠ 0 then .error (.throw "should only be set at stage 0.") else .ok ss'

/-- The loop over mode numbers (291-305). -/
def modeLoop (name : String) (v : F) (stage : Nat) :
    List Nat → List (Stage F) → Bool → Except Err (List (Stage F) × Bool)
  | [], ss, found => .ok (ss, found)
  | k :: ks, ss, found =>
    if name = "R0c" ++ toString k then
      match assignStart ss stage (.R0c k) v with
      | .error e => .error e
      | .ok ss' => modeLoop name v stage ks ss' true
    else if name = "Z0s" ++ toString k then
      match assignStart ss stage (.Z0s k) v with
      | .error e => .error e
      | .ok ss' => modeLoop name v stage ks ss' true
    else modeLoop name v stage ks ss found

/-- The body of the loop over stages (290-422); `nm` is `axis_nmax_plus_1`. -/
def setOne (nm : Nat) (name : String) (v : F) (ss : List (Stage F)) (stage : Nat) :
    Except Err (List (Stage F)) :=
  match modeLoop name v stage ((List.range nm).drop 1) ss false with
  | .error e => .error e
  | .ok (ss', found) =>
    if found then .ok ss'
    else if name ∈ settingNames then assign ss' stage (.num name) v
    else match startNames.lookup name with
      | some member => assignStart ss' stage (.num member) v
      | none => .error (.throw "Unrecognized entry in params")

/-- The stages visited for one parameter (281-288). -/
def stages (stage : Int) (n : Nat) : List Nat :=
  if stage < 0 then List.range n else [stage.toNat]

/-- One scanned parameter (multiopt_scan.hpp lines 61-65). -/
structure Param (F : Type) where
  name : String
  stage : Int
  val : F

/-- One pass of the loop over parameters (279-423). -/
def setParam (nm : Nat) (ss : List (Stage F)) (p : Param F) : Except Err (List (Stage F)) :=
  (stages p.stage ss.length).foldlM (setOne nm p.name p.val) ss

/-- Lines 277-424: copy the reference and set every parameter. -/
def setAll (nm : Nat) (ref : List (Stage F)) (ps : List (Param F)) : Except Err (List (Stage F)) :=
  ps.foldlM (setParam nm) ref

end Qsc.ScanParams
