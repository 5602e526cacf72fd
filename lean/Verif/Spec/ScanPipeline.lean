import Verif.Model.ScanPipeline
import Verif.Spec.Sections
import Verif.Spec.Random
import Verif.Spec.ScanLoop

/-!
Specification vocabulary for a random scan from an input file (C76, C77), in terms of the names in
the input file.
-/

namespace Qsc.Spec.ScanPipeline

open Qsc.Sections Qsc.ScanPipeline Qsc.Spec.Random Qsc.ScanDraws

/-- `x` is a value of the named distribution with the given bounds. -/
def InRange (name : String) (a b x : ℝ) : Prop :=
  (name ≠ "2 sided log" → Between a b x) ∧ (name = "2 sided log" → Between a b |x|) ∧
    (a = b → x = a)

/-- The bounds of the scalar `name` in the file, with the distribution named by its option. -/
def ScalarRange (o : Obj ℝ) (name : String) (Q : String → ℝ → ℝ → Prop) : Prop :=
  ∃ s a b, o (name ++ "_scan_option") = some (.str s) ∧ o (name ++ "_min") = some (.flt a) ∧
    o (name ++ "_max") = some (.flt b) ∧ Q s a b

/-- The bounds of mode `j` of the axis array `name` in the file.  The first mode of `R0c` is kept
positive for the option "2 sided log". -/
def ModeRange (o : Obj ℝ) (name : String) (j : Nat) (Q : String → ℝ → ℝ → Prop) : Prop :=
  ∃ s la lb a b, o "fourier_scan_option" = some (.str s) ∧ o (name ++ "_min") = some (.flts la) ∧
    o (name ++ "_max") = some (.flts lb) ∧ la[j]? = some a ∧ lb[j]? = some b ∧
    Q (if name = "R0c" ∧ j = 0 ∧ s = "2 sided log" then "log" else s) a b

/-- The number of modes. -/
def ModeCount (o : Obj ℝ) (n : Nat) : Prop := ∀ m ∈ Spec.Sections.boundArrays, Spec.Sections.Len o m n

/-- All bounds of the file are acceptable and the order is one of the three that exist. -/
structure Startable (o : Obj ℝ) (order : String) (n : Nat) : Prop where
  scalars : ∀ name ∈ ["eta_bar", "sigma0", "B2c", "B2s", "p2"], ScalarRange o name Acceptable
  modes : ∀ name ∈ ["R0c", "R0s", "Z0c", "Z0s"], ∀ j < n, ModeRange o name j Acceptable
  order : order = "r1" ∨ order = "r2" ∨ order = "r2.1"

/-- The inputs `d` of an attempt are as the file `o`, `[qsc]` section `q` says. -/
structure InBounds (o : Obj ℝ) (q : Toml.QscIn ℝ) (n : Nat) (d : Drawn) : Prop where
  first : ∀ x ∈ [("eta_bar", d.etaBar), ("sigma0", d.sigma0)],
    ScalarRange o x.1 fun s a b => InRange s a b x.2
  second : q.order_r_option ≠ "r1" → ∀ x ∈ [("B2c", d.B2c), ("B2s", d.B2s), ("p2", d.p2)],
    ScalarRange o x.1 fun s a b => InRange s a b x.2
  /-- at first order these are not drawn -/
  fixed : q.order_r_option = "r1" → d.B2c = q.B2c ∧ d.B2s = q.B2s ∧ d.p2 = q.p2
  modes : ∀ x ∈ [("R0c", d.R0c), ("R0s", d.R0s), ("Z0c", d.Z0c), ("Z0s", d.Z0s)],
    x.2.length = n ∧ ∀ j y, x.2[j]? = some y → ModeRange o x.1 j fun s a b => InRange s a b y

/-- The physics reports the inputs it was given. -/
structure Reports (phys : Drawn → Scan.Cand ℝ) : Prop where
  etaBar : ∀ d, (phys d).etaBar = d.etaBar
  sigma0 : ∀ d, (phys d).sigma0 = d.sigma0
  B2c : ∀ d, (phys d).B2c = d.B2c
  B2s : ∀ d, (phys d).B2s = d.B2s
  p2 : ∀ d, (phys d).p2 = d.p2
  R0c : ∀ d, (phys d).R0c = d.R0c
  R0s : ∀ d, (phys d).R0s = d.R0s
  Z0c : ∀ d, (phys d).Z0c = d.Z0c
  Z0s : ∀ d, (phys d).Z0s = d.Z0s

/-- The bounds on reported quantities in the file, at first order and for all orders above. -/
noncomputable def lower (c : Scan.Cand ℝ) : List (String × ℝ) :=
  [("min_R0_to_keep", c.gridMinR0), ("min_iota_to_keep", |c.iota|),
   ("min_L_grad_B_to_keep", c.gridMinLGradB), ("min_L_grad_B_to_keep", 1 / c.gridMaxCurvature)]
def upper (c : Scan.Cand ℝ) : List (String × ℝ) := [("max_elongation_to_keep", c.gridMaxElongation)]
def lower2 (c : Scan.Cand ℝ) : List (String × ℝ) :=
  [("min_L_grad_grad_B_to_keep", c.gridMinLGradGradB), ("min_r_singularity_to_keep", c.rSingularity),
   ("min_DMerc_times_r2_to_keep", c.dMerc), ("min_beta_to_keep", c.beta)]
def upper2 (c : Scan.Cand ℝ) : List (String × ℝ) :=
  [("max_B20_variation_to_keep", c.b20Variation), ("max_d2_volume_d_psi2_to_keep", c.d2Volume)]

/-- `c` meets every requirement of the file: the axis stays at positive radius at both symmetry
planes, and unless everything is to be kept every threshold is met. -/
structure Meets (o : Obj ℝ) (order : String) (c : Scan.Cand ℝ) : Prop where
  radius0 : 0 < ∑ j ∈ Finset.range c.R0c.length, c.R0c.getD j 0
  radiusHalf : 0 < ∑ j ∈ Finset.range c.R0c.length, (-1) ^ j * c.R0c.getD j 0
  helicity : o "keep_all" = some (.bool false) →
    (o "helicity_to_keep" = some (.int 0) → c.helicity = 0) ∧
    (o "helicity_to_keep" = some (.int 1) → c.helicity = 1 ∨ c.helicity = -1)
  lower : o "keep_all" = some (.bool false) → ∀ x ∈ lower c, ∀ t, o x.1 = some (.flt t) → t ≤ x.2
  upper : o "keep_all" = some (.bool false) → ∀ x ∈ upper c, ∀ t, o x.1 = some (.flt t) → x.2 ≤ t
  lower2 : o "keep_all" = some (.bool false) → order ≠ "r1" →
    ∀ x ∈ lower2 c, ∀ t, o x.1 = some (.flt t) → t ≤ x.2
  upper2 : o "keep_all" = some (.bool false) → order ≠ "r1" →
    ∀ x ∈ upper2 c, ∀ t, o x.1 = some (.flt t) → x.2 ≤ t

end Qsc.Spec.ScanPipeline
