import Verif.Model.Toml

/-!
# Reading whole input files: `scan_input.cpp`, `opt_input.cpp`, `multiopt.cpp` 36-55,
`multiopt_scan_input.cpp`

The file is already parsed.  The members of an object that are set from the file are a map from
their C++ names to values; `none` is a member (or local variable) that has no determinate value.
Printing and MPI barriers are left out.
-/

namespace Qsc.Sections

open Qsc.Toml (Key Value Table QscIn find? asInt asBool asFloat asStr asVector tomlUnused padVector
  qscInput)

/-- What can go wrong while reading a file (exceptions of toml_util.cpp, scan_input.cpp,
opt_input.cpp, multiopt.cpp lines 36-55, multiopt_scan_input.cpp lines 11-60). -/
inductive Err
  /-- an exception of toml11 or `toml_unused`, or the `assert` of `pad_vector` -/
  | toml (e : Toml.Err)
  /-- `toml::find` of a section that is not there -/
  | noSection (name : String)
  /-- `std::runtime_error` -/
  | throw (msg : String)
  /-- access outside an array or use of an indeterminate value -/
  | undefined (msg : String)
  /-- failing `assert` -/
  | assert
  deriving DecidableEq, Repr

/-- A parsed file: its sections (`toml::parse`, called in qsc_input.cpp line 11, scan_input.cpp
line 14, opt_input.cpp line 24, multiopt.cpp line 37). -/
abbrev File (F : Type) := List (String × Table F)

/-- Values of members (member types in scan.hpp lines 60-82, opt.hpp lines 28-59, multiopt_scan.hpp
lines 44-67). -/
inductive Val (F : Type)
  | int (i : Int)
  | bool (b : Bool)
  | flt (x : F)
  | str (s : String)
  | flts (l : List F)
  | bools (l : List Bool)
  | ints (l : List Int)
  | strs (l : List String)
  /-- a value of an enumeration -/
  | enum (s : String)
  deriving DecidableEq, Repr

/-- The types of the variables passed to `toml_read` (toml_util.cpp 8, 28, 42, 59, 68, 80, 92,
104). -/
inductive Kind
  | int
  | bool
  | flt
  | str
  | flts
  | bools
  | ints
  | strs
  deriving DecidableEq, Repr

/-- The members of an object (scan.hpp lines 60-82, opt.hpp lines 28-59, multiopt_scan.hpp lines
44-67). -/
abbrev Obj (F : Type) := String → Option (Val F)

variable {F : Type}

/-- Helper of the model; no counterpart in the code. -/
def set (o : Obj F) (m : String) (v : Val F) : Obj F := fun x => if x = m then some v else o x

/-- An element of `std::vector<bool>` (toml_util.cpp 82): toml11 converts no integers here. -/
def boolElem : Value F → Except Toml.Err Bool
  | .bool b => .ok b
  | _ => .error .typeError

/-- An element of `std::vector<std::string>` (toml_util.cpp 106). -/
def strElem : Value F → Except Toml.Err String
  | .str s => .ok s
  | _ => .error .typeError

/-- An array with all elements of one type (`toml::find<std::vector<T>>`, toml_util.cpp lines 70,
82, 94, 106). -/
def asArr {α : Type} (elem : Value F → Except Toml.Err α) : Value F → Except Toml.Err (List α)
  | .arr vs => vs.mapM elem
  | _ => .error .typeError

/-- The conversion of each overload of `toml_read` (toml_util.cpp 8-109). -/
def conv (ofInt : Int → F) : Kind → Value F → Except Toml.Err (Val F)
  | .int, x => (asInt x).map .int
  | .bool, x => (asBool x).map .bool
  | .flt, x => (asFloat ofInt x).map .flt
  | .str, x => (asStr x).map .str
  | .flts, x => (asVector x).map .flts
  | .bools, x => (asArr boolElem x).map .bools
  | .ints, x => (asArr asInt x).map .ints
  | .strs, x => (asArr strElem x).map .strs

/-- One call `toml_read(varlist, indata, "key", member)` (toml_util.cpp lines 8-109). -/
structure Call where
  kind : Kind
  key : Key
  member : String

/-- `toml_read` on a member (toml_util.cpp lines 8-109). -/
def readCall (ofInt : Int → F) (t : Table F) (s : Obj F × List Key) (c : Call) :
    Except Toml.Err (Obj F × List Key) :=
  match find? t c.key with
  | some x =>
    match conv ofInt c.kind x with
    | .ok v => .ok (set s.1 c.member v, s.2 ++ [c.key])
    | .error e => .error e
  | none => .ok (s.1, s.2 ++ [c.key])

/-- A run of `toml_read` calls, in order (scan_input.cpp lines 19-63, opt_input.cpp lines 29-90,
multiopt_scan_input.cpp lines 23-51). -/
def readCalls (ofInt : Int → F) (t : Table F) (calls : List Call) (s : Obj F × List Key) :
    Except Toml.Err (Obj F × List Key) :=
  calls.foldlM (readCall ofInt t) s

/-- Calls whose key and variable have the same name. Helper of the model; no counterpart in the
code. -/
def same (k : Kind) (names : List String) : List Call := names.map fun n => ⟨k, n, n⟩

/-- `toml::find(toml_file, name)` for a section (library function, called in scan_input.cpp line
15, opt_input.cpp line 25, multiopt.cpp line 38, multiopt_scan_input.cpp line 19). -/
def findSection (f : File F) (name : String) : Except Err (Table F) :=
  match f.find? fun s => s.1 == name with
  | some s => .ok s.2
  | none => .error (.noSection name)

/-- Errors of toml11 and `toml_util.cpp` pass through. -/
def lift {α : Type} : Except Toml.Err α → Except Err α
  | .ok a => .ok a
  | .error e => .error (.toml e)

/-- `q.input(filename)` (qsc_input.cpp 14-52). -/
def inputQsc (ofInt : Int → F) (zero : F) (f : File F) (d : QscIn F) : Except Err (QscIn F) :=
  (findSection f "qsc").bind fun t => lift (qscInput ofInt zero t d)

/-! ## `Scan::input` -/

/-- A `Scan` object: `q` and the members set by the file (scan.hpp lines 52-101). -/
structure ScanObj (F : Type) where
  q : QscIn F
  mem : Obj F

/-- The calls of scan_input.cpp 19-63, in order. -/
def scanCalls : List Call :=
  same .str ["eta_bar_scan_option", "sigma0_scan_option", "B2c_scan_option", "B2s_scan_option",
    "p2_scan_option", "fourier_scan_option"] ++
  same .flt ["eta_bar_min", "eta_bar_max", "sigma0_min", "sigma0_max", "B2c_min", "B2c_max",
    "B2s_min", "B2s_max", "p2_min", "p2_max"] ++
  same .flts ["R0c_min", "R0c_max", "R0s_min", "R0s_max", "Z0c_min", "Z0c_max", "Z0s_min",
    "Z0s_max"] ++
  [⟨.bool, "deterministic", "deterministic"⟩] ++
  same .flt ["save_period", "max_seconds"] ++
  same .int ["max_keep_per_proc", "max_attempts_per_proc"] ++
  [⟨.bool, "keep_all", "keep_all"⟩] ++
  same .flt ["min_R0_to_keep", "min_iota_to_keep", "max_elongation_to_keep",
    "min_L_grad_B_to_keep", "min_L_grad_grad_B_to_keep", "max_B20_variation_to_keep",
    "min_r_singularity_to_keep", "min_DMerc_times_r2_to_keep", "max_d2_volume_d_psi2_to_keep",
    "min_beta_to_keep"] ++
  [⟨.int, "helicity_to_keep", "helicity_to_keep"⟩]

/-- The eight arrays of scan_input.cpp 69-76, in the order of the calls of `std::max`. -/
def scanArrays : List String :=
  ["R0c_min", "R0s_min", "Z0c_min", "Z0s_min", "R0c_max", "R0s_max", "Z0c_max", "Z0s_max"]

/-- A member that is a `Vector` (`Vector` members, scan.hpp line 68). -/
def vecOf (o : Obj F) (m : String) : Except Err (List F) :=
  match o m with
  | some (.flts l) => .ok l
  | _ => .error (.undefined m)

/-- `newsize = std::max(newsize, x.size())` for each array (scan_input.cpp 68-76). -/
def newSize (o : Obj F) : List String → Nat → Except Err Nat
  | [], n => .ok n
  | m :: ms, n => (vecOf o m).bind fun v => newSize o ms (max n v.length)

/-- `pad_vector(x, newsize)` for each array (scan_input.cpp 77-84). -/
def padMembers (zero : F) (n : Nat) : List String → Obj F → Except Err (Obj F)
  | [], o => .ok o
  | m :: ms, o =>
    (vecOf o m).bind fun v =>
    (lift (padVector zero v n)).bind fun w => padMembers zero n ms (set o m (.flts w))

/-- `Scan::input` (scan_input.cpp 10-84). -/
def scanInput (ofInt : Int → F) (zero : F) (f : File F) (d : ScanObj F) :
    Except Err (ScanObj F) :=
  (inputQsc ofInt zero f d.q).bind fun q =>
  (findSection f "scan").bind fun t =>
  (lift (readCalls ofInt t scanCalls (d.mem, []))).bind fun s =>
  (lift (tomlUnused s.2 t)).bind fun _ =>
  (newSize s.1 scanArrays 0).bind fun n =>
  (padMembers zero n scanArrays s.1).bind fun o => .ok ⟨q, o⟩

/-! ## `Opt::input` -/

/-- An `Opt` object (opt.hpp lines 23-59). -/
structure OptObj (F : Type) where
  q : QscIn F
  /-- `toml_group` -/
  group : String
  mem : Obj F

/-- `v.resize(n, b)` for a valarray and then, for two of them, `v[0] = false`
(opt_input.cpp 17-22). -/
def varyDefault (n : Nat) (b : Bool) (clear : Bool) : Except Err (List Bool) :=
  if clear then
    if 0 < n then .ok ((List.replicate n b).set 0 false) else .error (.undefined "vary array")
  else .ok (List.replicate n b)

/-- The defaults of the four arrays, from the size of `q.R0c` (opt_input.cpp 17-22).  The writes
to element 0 come after all four `resize` calls. -/
def varyDefaults (n : Nat) (o : Obj F) : Except Err (Obj F) :=
  (varyDefault n true true).bind fun r0c =>
  (varyDefault n false false).bind fun r0s =>
  (varyDefault n false false).bind fun z0c =>
  (varyDefault n true true).bind fun z0s =>
  .ok (set (set (set (set o "vary_R0c" (.bools r0c)) "vary_R0s" (.bools r0s)) "vary_Z0c"
    (.bools z0c)) "vary_Z0s" (.bools z0s))

/-- The calls of opt_input.cpp 29-69, in order. -/
def optCalls : List Call :=
  same .bool ["vary_eta_bar", "vary_sigma0", "vary_B2c", "vary_B2s"] ++
  same .bools ["vary_R0c", "vary_R0s", "vary_Z0c", "vary_Z0s"] ++
  same .flt ["weight_B20", "weight_iota", "target_iota", "weight_elongation", "weight_curvature",
    "weight_R0", "min_R0", "weight_d2_volume_d_psi2", "max_d2_volume_d_psi2",
    "weight_DMerc_times_r2", "min_DMerc_times_r2", "weight_XY2", "weight_XY2Prime",
    "weight_XY2PrimePrime", "weight_Z2", "weight_Z2Prime", "weight_XY3", "weight_XY3Prime",
    "weight_XY3PrimePrime", "weight_grad_B", "weight_grad_grad_B", "weight_r_singularity",
    "weight_axis_length", "target_axis_length", "weight_standard_deviation_of_R",
    "weight_B20_mean"] ++
  same .int ["max_iter", "verbose"] ++
  [⟨.bool, "make_names", "make_names"⟩, ⟨.int, "fourier_refine", "fourier_refine"⟩,
   ⟨.ints, "nphi", "nphi"⟩]

/-- Lines 70-71 of opt_input.cpp.  `fourier_refine + 1` is converted to an unsigned type of 64
bits for the comparison; overflow of the `int` sum is not modelled. -/
def checkNphi (o : Obj F) : Except Err Unit :=
  match o "nphi", o "fourier_refine" with
  | some (.ints l), some (.int r) =>
    if 0 < l.length ∧ (l.length : Int) ≠ (r + 1) % 2 ^ 64 then
      .error (.throw "Size of the multiopt nphi array does not match fourier_refine + 1")
    else .ok ()
  | _, _ => .error (.undefined "nphi")

/-- opt_input.cpp 75-87. -/
def chooseAlgorithm (s : String) (o : Obj F) : Except Err (Obj F) :=
  if s = "lm" then .ok (set o "algorithm" (.enum "GSL_LM"))
  else if s = "dogleg" then .ok (set o "algorithm" (.enum "GSL_DOGLEG"))
  else if s = "ddogleg" then .ok (set o "algorithm" (.enum "GSL_DDOGLEG"))
  else if s = "subspace2d" then .ok (set o "algorithm" (.enum "GSL_SUBSPACE2D"))
  else if s = "" then .ok o
  else .error (.throw "Unrecognized algorithm")

/-- opt_input.cpp 91-99. -/
def chooseDiff (s : String) (o : Obj F) : Except Err (Obj F) :=
  if s = "forward" then .ok (set o "diff_method" (.enum "DIFF_METHOD_FORWARD"))
  else if s = "centered" then .ok (set o "diff_method" (.enum "DIFF_METHOD_CENTERED"))
  else if s = "" then .ok o
  else .error (.throw "Unrecognized diff_method")

/-- `Opt::input` (opt_input.cpp 11-101). -/
def optInput (ofInt : Int → F) (zero : F) (f : File F) (d : OptObj F) :
    Except Err (OptObj F) :=
  (inputQsc ofInt zero f d.q).bind fun q =>
  (varyDefaults q.R0c.length d.mem).bind fun o =>
  (findSection f d.group).bind fun t =>
  (lift (readCalls ofInt t optCalls (o, []))).bind fun s =>
  (checkNphi s.1).bind fun _ =>
  (lift (Toml.tomlRead asStr t "algorithm" "" s.2)).bind fun a =>
  (chooseAlgorithm a.1 s.1).bind fun o =>
  (lift (Toml.tomlRead asStr t "diff_method" "" a.2)).bind fun m =>
  (chooseDiff m.1 o).bind fun o =>
  (lift (tomlUnused m.2 t)).bind fun _ => .ok ⟨q, d.group, o⟩

/-! ## `MultiOpt::input` -/

/-- A `MultiOpt` object (multiopt.hpp lines 9-23). -/
structure MultiOptObj (F : Type) where
  opts : List (OptObj F)
  mem : Obj F

/-- Lines 42-43 of multiopt.cpp; `nopts` is a local variable. -/
def multioptCalls : List Call := [⟨.int, "nopts", "nopts"⟩, ⟨.int, "verbose", "verbose"⟩]

/-- The name of the section of a stage: `"opt" + std::to_string(jopt)` (multiopt.cpp 50). -/
def groupName (j : Nat) : String := "opt" ++ Nat.repr j

/-- The loop over the stages (multiopt.cpp 48-53), from stage `j` on; `new` is a default
constructed `Opt`. -/
def readStages (ofInt : Int → F) (zero : F) (f : File F) (new : OptObj F) :
    Nat → Nat → Except Err (List (OptObj F))
  | _, 0 => .ok []
  | j, n + 1 =>
    (optInput ofInt zero f ⟨new.q, groupName j, set new.mem "make_names" (.bool false)⟩).bind
      fun o => (readStages ofInt zero f new (j + 1) n).bind fun os => .ok (o :: os)

/-- `MultiOpt::input` (multiopt.cpp 36-55).  `nopts` has no initial value (line 41).  Printing,
which for `verbose > 0` comes between, is left out. -/
def multioptInput (ofInt : Int → F) (zero : F) (f : File F) (new : OptObj F)
    (d : MultiOptObj F) : Except Err (MultiOptObj F) :=
  (findSection f "multiopt").bind fun t =>
  (lift (readCalls ofInt t multioptCalls (fun m => if m = "nopts" then none else d.mem m, []))).bind
    fun s =>
  (lift (tomlUnused s.2 t)).bind fun _ =>
  match s.1 "nopts" with
  | some (.int n) =>
    if n < 1 then
      .error (.throw "In the multiopt parameter list, nopts must be at least 1.")
    else (readStages ofInt zero f new 0 n.toNat).bind fun os => .ok ⟨os, s.1⟩
  | _ => .error (.undefined "nopts")

/-! ## `MultiOptScan::input` -/

/-- A `MultiOptScan` object (multiopt_scan.hpp lines 43-67). -/
structure MultiScanObj (F : Type) where
  ref : MultiOptObj F
  ndim : Nat
  mem : Obj F

/-- The calls of multiopt_scan_input.cpp 23-51, in order. -/
def multiScanCalls : List Call :=
  [⟨.int, "verbose", "verbose"⟩, ⟨.bool, "quit_after_init", "quit_after_init"⟩] ++
  same .flt ["save_period", "print_status_period", "max_seconds"] ++
  [⟨.strs, "params", "params"⟩] ++
  same .flts ["params_min", "params_max"] ++
  same .ints ["params_n", "params_stage"] ++
  [⟨.bools, "params_log", "params_log"⟩, ⟨.bool, "keep_all", "keep_all"⟩] ++
  same .flt ["min_R0_to_keep", "min_iota_to_keep", "max_elongation_to_keep",
    "min_L_grad_B_to_keep", "min_L_grad_grad_B_to_keep", "max_B20_variation_to_keep",
    "min_r_singularity_to_keep", "max_d2_volume_d_psi2_to_keep", "min_DMerc_times_r2_to_keep",
    "max_XY2_to_keep", "max_Z2_to_keep", "max_XY3_to_keep", "max_d_XY2_d_varphi_to_keep",
    "max_d_Z2_d_varphi_to_keep", "max_d_XY3_d_varphi_to_keep"]

/-- `.size()` of an array member (multiopt_scan_input.cpp lines 55-60). -/
def sizeOf (o : Obj F) (m : String) : Except Err Nat :=
  match o m with
  | some (.flts l) => .ok l.length
  | some (.bools l) => .ok l.length
  | some (.ints l) => .ok l.length
  | some (.strs l) => .ok l.length
  | _ => .error (.undefined m)

/-- `assert (x.size() == ndim)` for each array (multiopt_scan_input.cpp lines 56-60). -/
def assertSizes (o : Obj F) (n : Nat) : List String → Except Err Unit
  | [] => .ok ()
  | m :: ms =>
    (sizeOf o m).bind fun k => if k = n then assertSizes o n ms else .error .assert

/-- `MultiOptScan::input` (multiopt_scan_input.cpp 11-60), with assertions enabled. -/
def multiScanInput (ofInt : Int → F) (zero : F) (f : File F) (new : OptObj F)
    (d : MultiScanObj F) : Except Err (MultiScanObj F) :=
  (multioptInput ofInt zero f new d.ref).bind fun mo =>
  (findSection f "multiopt_scan").bind fun t =>
  (lift (readCalls ofInt t multiScanCalls (d.mem, []))).bind fun s =>
  (lift (tomlUnused s.2 t)).bind fun _ =>
  (sizeOf s.1 "params").bind fun n =>
  (assertSizes s.1 n ["params_max", "params_min", "params_n", "params_log", "params_stage"]).bind
    fun _ => .ok ⟨mo, n, s.1⟩

end Qsc.Sections
