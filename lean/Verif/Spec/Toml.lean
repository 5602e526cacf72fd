import Verif.Model.Toml

/-! Specification vocabulary for reading input sections (C04, C05). -/

namespace Qsc.Spec.Toml
open Qsc.Toml

/-- A value of the file stands for the integer `v`. -/
def IsInt {F : Type} (x : Value F) (v : Int) : Prop := x = .int v

/-- A value stands for the float `v`: a float, or an integer that is converted. -/
def IsFloat {F : Type} (ofInt : Int → F) (x : Value F) (v : F) : Prop :=
  x = .flt v ∨ ∃ i, x = .int i ∧ v = ofInt i

/-- A value stands for the string `v`. -/
def IsStr {F : Type} (x : Value F) (v : String) : Prop := x = .str v

/-- A value stands for the truth value `v`: `true`, `false`, or an integer, 0 meaning false. -/
def IsBool {F : Type} (x : Value F) (v : Bool) : Prop :=
  x = .bool v ∨ ∃ i, x = .int i ∧ (v = true ↔ i ≠ 0)

/-- A value stands for the array `v` of floats. -/
def IsVector {F : Type} (x : Value F) (v : List F) : Prop := x = .arr (v.map .flt)

/-- `v` is what reading key `k` from section `t` with default `d` must give: the default if
the key is absent, what the value of every entry with that key stands for otherwise. -/
def Reads {F α : Type} (is : Value F → α → Prop) (t : Table F) (k : Key) (d v : α) : Prop :=
  ((∀ x, (k, x) ∉ t) → v = d) ∧ (∀ x, (k, x) ∈ t → is x v)

/-- The documented keys of the `[qsc]` section. -/
def qscKeys : List Key :=
  ["nphi", "nfp", "eta_bar", "spsi", "sG", "B0", "I2", "sigma0", "B2s", "B2c", "p2",
   "max_newton_iterations", "max_linesearch_iterations", "newton_tolerance", "verbose",
   "order_r_option", "R0c", "R0s", "Z0c", "Z0s"]

/-- The type each documented key of `[qsc]` must have.  Floats may be given as integers. -/
def HasKind {F : Type} (k : Key) (x : Value F) : Prop :=
  if k ∈ ["nphi", "nfp", "spsi", "sG", "max_newton_iterations", "max_linesearch_iterations",
      "verbose"] then ∃ i, x = .int i
  else if k ∈ ["eta_bar", "B0", "I2", "sigma0", "B2s", "B2c", "p2", "newton_tolerance"] then
    (∃ y, x = .flt y) ∨ ∃ i, x = .int i
  else if k = "order_r_option" then ∃ s, x = .str s
  else if k ∈ ["R0c", "R0s", "Z0c", "Z0s"] then ∃ l : List F, x = .arr (l.map .flt)
  else True

/-- `w` is `v` followed by zeros, of total length `n`. -/
def PaddedTo {F : Type} (zero : F) (n : Nat) (v w : List F) : Prop :=
  w.length = n ∧ v.length ≤ n ∧ (∀ i (h : i < v.length), w[i]? = some v[i]) ∧
    (∀ i, v.length ≤ i → i < n → w[i]? = some zero)

end Qsc.Spec.Toml
