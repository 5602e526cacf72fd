import Verif.Model.Sections
import Verif.Spec.Toml

/-!
Specification vocabulary for reading whole input files (C69-C72): what a value in the file stands
for, and the keys of each section with their types.  The keys are listed by type, independently of
the order of the calls in the code.
-/

namespace Qsc.Spec.Sections

open Qsc.Sections Qsc.Toml Qsc.Spec.Toml

variable {F : Type}

/-- A value of the file stands for a value of a variable of the given type. -/
def Stands (ofInt : Int → F) : Kind → Value F → Val F → Prop
  | .int, x, v => ∃ i, x = .int i ∧ v = .int i
  | .bool, x, v => ∃ b, IsBool x b ∧ v = .bool b
  | .flt, x, v => ∃ y, IsFloat ofInt x y ∧ v = .flt y
  | .str, x, v => ∃ s, x = .str s ∧ v = .str s
  | .flts, x, v => ∃ l : List F, x = .arr (l.map .flt) ∧ v = .flts l
  | .bools, x, v => ∃ l : List Bool, x = .arr (l.map .bool) ∧ v = .bools l
  | .ints, x, v => ∃ l : List Int, x = .arr (l.map .int) ∧ v = .ints l
  | .strs, x, v => ∃ l : List String, x = .arr (l.map .str) ∧ v = .strs l

/-- The keys of a section by type. -/
abbrev Doc := List (Kind × List Key)

/-- `k` is a key of type `κ`. -/
def Doc.Has (d : Doc) (κ : Kind) (k : Key) : Prop := ∃ ks, (κ, ks) ∈ d ∧ k ∈ ks

/-- The member `k` of the object after reading section `t`: unchanged if the key is absent, what
the file says otherwise. -/
def Member (ofInt : Int → F) (κ : Kind) (t : Table F) (k : Key) (before after : Option (Val F)) :
    Prop :=
  ((∀ x, (k, x) ∉ t) → after = before) ∧
    ∀ x, (k, x) ∈ t → ∃ v, Stands ofInt κ x v ∧ after = some v

/-- Section `t` was read: every key in it is known, every member with a key is as the file says,
all other members are unchanged. -/
def Read (ofInt : Int → F) (d : Doc) (t : Table F) (before after : Obj F) : Prop :=
  (∀ k x, (k, x) ∈ t → ∃ κ, d.Has κ k) ∧
  (∀ κ k, d.Has κ k → Member ofInt κ t k (before k) (after k)) ∧
  ∀ m, (∀ κ, ¬ d.Has κ m) → after m = before m

/-- No section and no key of a section is defined twice (toml11 refuses such files). -/
def WellFormed (f : File F) : Prop :=
  (f.map (·.1)).Nodup ∧ ∀ s ∈ f, (s.2.map (·.1)).Nodup

/-- The value has the type. -/
def OfKind : Kind → Val F → Prop
  | .int, v => ∃ i, v = .int i
  | .bool, v => ∃ b, v = .bool b
  | .flt, v => ∃ y, v = .flt y
  | .str, v => ∃ s, v = .str s
  | .flts, v => ∃ l, v = .flts l
  | .bools, v => ∃ l, v = .bools l
  | .ints, v => ∃ l, v = .ints l
  | .strs, v => ∃ l, v = .strs l

/-- All members with a key are initialised, with a value of the right type. -/
def Typed (d : Doc) (o : Obj F) : Prop := ∀ κ k, d.Has κ k → ∃ v, o k = some v ∧ OfKind κ v

/-- The number of entries of an array member. -/
def Len (o : Obj F) (m : String) (n : Nat) : Prop :=
  (∃ l, o m = some (.flts l) ∧ l.length = n) ∨ (∃ l, o m = some (.bools l) ∧ l.length = n) ∨
    (∃ l, o m = some (.ints l) ∧ l.length = n) ∨ ∃ l, o m = some (.strs l) ∧ l.length = n

/-- The keys of `[scan]`. -/
def scanDoc : Doc :=
  [(.bool, ["deterministic", "keep_all"]),
   (.int, ["helicity_to_keep", "max_attempts_per_proc", "max_keep_per_proc"]),
   (.str, ["eta_bar_scan_option", "sigma0_scan_option", "B2s_scan_option", "B2c_scan_option",
     "p2_scan_option", "fourier_scan_option"]),
   (.flt, ["eta_bar_min", "eta_bar_max", "sigma0_min", "sigma0_max", "B2s_min", "B2s_max",
     "B2c_min", "B2c_max", "p2_min", "p2_max", "max_seconds", "save_period", "min_R0_to_keep",
     "min_iota_to_keep", "max_elongation_to_keep", "min_L_grad_B_to_keep",
     "min_L_grad_grad_B_to_keep", "max_B20_variation_to_keep", "min_r_singularity_to_keep",
     "max_d2_volume_d_psi2_to_keep", "min_DMerc_times_r2_to_keep", "min_beta_to_keep"]),
   (.flts, ["R0c_min", "R0c_max", "R0s_min", "R0s_max", "Z0c_min", "Z0c_max", "Z0s_min",
     "Z0s_max"])]

/-- The keys of `[opt]` and `[opt<j>]` that set a member of the same name. -/
def optDoc : Doc :=
  [(.bool, ["make_names", "vary_eta_bar", "vary_sigma0", "vary_B2c", "vary_B2s"]),
   (.int, ["fourier_refine", "max_iter", "verbose"]),
   (.ints, ["nphi"]),
   (.bools, ["vary_R0c", "vary_R0s", "vary_Z0c", "vary_Z0s"]),
   (.flt, ["target_iota", "target_axis_length", "min_R0", "max_d2_volume_d_psi2",
     "min_DMerc_times_r2", "weight_B20", "weight_iota", "weight_elongation", "weight_curvature",
     "weight_R0", "weight_d2_volume_d_psi2", "weight_DMerc_times_r2", "weight_XY2",
     "weight_XY2Prime", "weight_XY2PrimePrime", "weight_Z2", "weight_Z2Prime", "weight_XY3",
     "weight_XY3Prime", "weight_XY3PrimePrime", "weight_grad_B", "weight_grad_grad_B",
     "weight_r_singularity", "weight_axis_length", "weight_standard_deviation_of_R",
     "weight_B20_mean"])]

/-- The keys of `[multiopt_scan]`. -/
def multiScanDoc : Doc :=
  [(.bool, ["keep_all", "quit_after_init"]),
   (.int, ["verbose"]),
   (.strs, ["params"]),
   (.bools, ["params_log"]),
   (.ints, ["params_n", "params_stage"]),
   (.flts, ["params_max", "params_min"]),
   (.flt, ["max_seconds", "print_status_period", "save_period", "min_R0_to_keep",
     "min_iota_to_keep", "max_elongation_to_keep", "min_L_grad_B_to_keep",
     "min_L_grad_grad_B_to_keep", "max_B20_variation_to_keep", "min_r_singularity_to_keep",
     "max_d2_volume_d_psi2_to_keep", "min_DMerc_times_r2_to_keep", "max_XY2_to_keep",
     "max_Z2_to_keep", "max_XY3_to_keep", "max_d_XY2_d_varphi_to_keep",
     "max_d_Z2_d_varphi_to_keep", "max_d_XY3_d_varphi_to_keep"])]

/-- The keys of `[multiopt]`. -/
def multioptDoc : Doc := [(.int, ["verbose", "nopts"])]

/-- The names of the optimization algorithms in input files and in the code. -/
def algorithms : List (String × String) :=
  [("lm", "GSL_LM"), ("dogleg", "GSL_DOGLEG"), ("ddogleg", "GSL_DDOGLEG"),
   ("subspace2d", "GSL_SUBSPACE2D")]

/-- The names of the finite difference methods. -/
def diffMethods : List (String × String) :=
  [("forward", "DIFF_METHOD_FORWARD"), ("centered", "DIFF_METHOD_CENTERED")]

/-- A key whose value is one of a list of names.  The empty string counts as absent. -/
def Choice (names : List (String × String)) (t : Table F) (k : Key)
    (before after : Option (Val F)) : Prop :=
  ((∀ x, (k, x) ∉ t) → after = before) ∧
    ∀ x, (k, x) ∈ t → (x = .str "" ∧ after = before) ∨
      ∃ s e, (s, e) ∈ names ∧ x = .str s ∧ after = some (.enum e)

/-- The eight arrays that bound the axis shapes of a random scan. -/
def boundArrays : List String :=
  ["R0c_min", "R0c_max", "R0s_min", "R0s_max", "Z0c_min", "Z0c_max", "Z0s_min", "Z0s_max"]

/-- The arrays of `o` after padding all eight to the longest one. -/
def Padded (zero : F) (o r : Obj F) : Prop :=
  (∃ n, (∃ m ∈ boundArrays, Len o m n) ∧
    ∀ m ∈ boundArrays, ∃ l w, o m = some (.flts l) ∧ r m = some (.flts w) ∧ PaddedTo zero n l w) ∧
  ∀ m, m ∉ boundArrays → r m = o m

/-- What the members of an `Opt` are before the keys of its section are looked up: by default the
amplitudes of `R0c` and `Z0s` except the first are varied. -/
def OptInitial (n : Nat) (o : Obj F) (k : String) : Option (Val F) :=
  if k = "vary_R0c" ∨ k = "vary_Z0s" then some (.bools (false :: List.replicate (n - 1) true))
  else if k = "vary_R0s" ∨ k = "vary_Z0c" then some (.bools (List.replicate n false))
  else o k

end Qsc.Spec.Sections
