import Verif.Model.Netcdf

/-!
# What a written netCDF file contains

A file is looked at through its table of contents: for each variable its name, type, the names and lengths
of its dimensions, its attributes and its data.  `entry` says what one call should add to that table.
-/

namespace Qsc.Spec.Netcdf
open Qsc.Netcdf

variable {F : Type}

structure Entry (F : Type) where
  name : String
  ty : Ty
  dims : List (String × Nat)
  atts : List (String × String)
  data : Option (Data F)
  deriving DecidableEq

/-- Name and length of the dimension with a given number. -/
def dimAt (dims : List (String × Nat)) (d : Nat) : String × Nat := (dims[d]?).getD ("", 0)

def view (dims : List (String × Nat)) (v : Var F) : Entry F :=
  ⟨v.name, v.ty, v.dims.map (dimAt dims), v.atts, v.data⟩

/-- The table of contents. -/
def contents (f : File F) : List (Entry F) := f.vars.map (view f.dims)

/-- Attributes: those whose text is not empty. -/
def attributes (text units : String) : List (String × String) :=
  [("description", text), ("units", units)].filter fun a => a.2 ≠ ""

/-- The first `n` elements. -/
def first (n : Nat) : Data F → Data F
  | .ints l => .ints (l.take n)
  | .flts l => .flts (l.take n)
  | .chars l => .chars (l.take n)

def size : Data F → Nat
  | .ints l => l.length
  | .flts l => l.length
  | .chars l => l.length

def tyOf : Data F → Ty
  | .ints _ => .int
  | .flts _ => .flt
  | .chars _ => .chr

/-- What a call adds to the table of contents; `dims` are the dimensions of the finished file. -/
def entry (toF : Nat → F) (m : Mem F) (dims : List (String × Nat)) : Op → Option (Entry F)
  | .dim _ _ => none
  | .int name a text units => some ⟨name, .int, [], attributes text units, some (first 1 (m a))⟩
  | .flt name a text units => some ⟨name, .flt, [], attributes text units, some (first 1 (m a))⟩
  | .big name v text units => some ⟨name, .flt, [], attributes text units, some (.flts [toF v])⟩
  | .str name a text =>
    some ⟨name, .chr, [(strDim (size (m a)), size (m a))], attributes text "", some (m a)⟩
  | .intVec d name a text units =>
    some ⟨name, .int, [dimAt dims d], attributes text units, some (first (dimAt dims d).2 (m a))⟩
  | .fltVec d name a text units =>
    some ⟨name, .flt, [dimAt dims d], attributes text units, some (first (dimAt dims d).2 (m a))⟩
  | .nd ds name a text units =>
    some ⟨name, .flt, (ds.map (dimAt dims)).reverse, attributes text units,
      some (first (ds.map fun d => (dimAt dims d).2).prod (m a))⟩

/-- All variables of a file use dimensions of the file. -/
def WellFormed (f : File F) : Prop := ∀ v ∈ f.vars, ∀ d ∈ v.dims, d < f.dims.length

/-- Dimensions that carry the name of a string length have that length. -/
def Clean (dims : List (String × Nat)) : Prop := ∀ n l, (strDim n, l) ∈ dims → l = n

/-- The dimensions defined by the caller. -/
def dimOps (ops : List Op) : List (String × Nat) :=
  ops.filterMap fun | .dim name len => some (name, len) | _ => none

/-- The name of the variable a call defines. -/
def varName : Op → Option String
  | .dim _ _ => none
  | .int name _ _ _ | .flt name _ _ _ | .big name _ _ _ | .str name _ _ => some name
  | .intVec _ name _ _ _ | .fltVec _ name _ _ _ | .nd _ name _ _ _ => some name

/-- What a call needs from memory and from the dimensions defined by the caller.  The one dimension that may
have length zero can only be the last of an array. -/
def Ready (m : Mem F) (dims : List (String × Nat)) : Op → Prop
  | .dim _ _ => False
  | .int _ a _ _ => ∃ l, m a = .ints l ∧ 1 ≤ l.length
  | .flt _ a _ _ => ∃ l, m a = .flts l ∧ 1 ≤ l.length
  | .big _ _ _ _ => True
  | .str _ a _ => ∃ l, m a = .chars l ∧ 1 ≤ l.length
  | .intVec d _ a _ _ => d < dims.length ∧ ∃ l, m a = .ints l ∧ (dimAt dims d).2 ≤ l.length
  | .fltVec d _ a _ _ => d < dims.length ∧ ∃ l, m a = .flts l ∧ (dimAt dims d).2 ≤ l.length
  | .nd ds _ a _ _ => (∀ d ∈ ds, d < dims.length) ∧ (∀ d ∈ ds.dropLast, (dimAt dims d).2 ≠ 0) ∧
      ∃ l, m a = .flts l ∧ (ds.map fun d => (dimAt dims d).2).prod ≤ l.length

end Qsc.Spec.Netcdf
