/-!
# `netcdf_writer.cpp` and the reader class of `read_netcdf.cpp`

The netCDF library is part of the model as an environment: a file is a list of dimensions and a list of
variables, identifiers are positions in these lists, and the library refuses what netCDF refuses: a name in
use, an unknown dimension, a second unlimited dimension (length 0 means unlimited), an unlimited dimension
that is not the first.  Conversion between number types and other library failures (disk, permissions) are
left out.  Numbers of type `qscfloat` are an arbitrary type.

Memory is a map from the C++ expressions that are written to their contents.  Reading past the end of an
object, or reading it as another type, is undefined behaviour and a separate outcome.
-/

namespace Qsc.Netcdf

/-- Failures: an error code of the library, turned into an exception by `ERR` (netcdf_writer.cpp
lines 32-34), or reading outside an object. -/
inductive Err where
  | nc (msg : String)
  | undefined (msg : String)
  deriving DecidableEq, Repr

/-- `NC_INT`, `QSCFLOAT`, `NC_CHAR` (netcdf_writer.cpp lines 76, 87, 130). -/
inductive Ty where
  | int
  | flt
  | chr
  deriving DecidableEq, Repr

/-- Contents of a variable or of an object in memory; a scalar has one element (netcdf_writer.cpp
lines 193-213). -/
inductive Data (F : Type) where
  | ints (l : List Int)
  | flts (l : List F)
  | chars (l : List Char)
  deriving DecidableEq, Repr

/-- A variable of a netCDF file as defined by `nc_def_var` and `nc_put_att_text` (called in
netcdf_writer.cpp lines 62-67, 76, 87, 102, 130, 142, 153, 170); the library is not part of the
repository. -/
structure Var (F : Type) where
  name : String
  ty : Ty
  dims : List Nat
  atts : List (String × String)
  data : Option (Data F)
  deriving DecidableEq, Repr

/-- A netCDF file: dimensions and variables (netcdf_writer.cpp lines 13-30); the library is not
part of the repository. -/
structure File (F : Type) where
  dims : List (String × Nat)
  vars : List (Var F)
  deriving DecidableEq, Repr

/-- The objects of the caller, by the expression passed to `put` (netcdf_writer.cpp lines 73-176).
-/
abbrev Mem (F : Type) := String → Data F

variable {F : Type}

/-! ## The library -/

/-- `nc_def_dim` (library function called in netcdf_writer.cpp lines 41, 125). -/
def defDim (f : File F) (name : String) (len : Nat) : Except Err (File F × Nat) :=
  if f.dims.any fun d => d.1 == name then .error (.nc "NC_ENAMEINUSE")
  else if len == 0 && f.dims.any (fun d => d.2 == 0) then .error (.nc "NC_EUNLIMIT")
  else .ok ({ f with dims := f.dims ++ [(name, len)] }, f.dims.length)

/-- `nc_inq_dimid` (library function called in netcdf_writer.cpp lines 51, 122). -/
def inqDim (f : File F) (name : String) : Option Nat := f.dims.findIdx? fun d => d.1 == name

/-- Length of a dimension (library state; dimensions from netcdf_writer.cpp lines 41, 125). -/
def dimLen (f : File F) (d : Nat) : Nat := (f.dims[d]?.map (·.2)).getD 0

/-- `nc_def_var` (library function called in netcdf_writer.cpp lines 76, 87, 102, 130, 142, 153,
170). -/
def defVar (f : File F) (name : String) (ty : Ty) (dims : List Nat) : Except Err (File F × Nat) :=
  if f.vars.any fun v => v.name == name then .error (.nc "NC_ENAMEINUSE")
  else if dims.any fun d => decide (f.dims.length ≤ d) then .error (.nc "NC_EBADDIM")
  else if dims.tail.any fun d => dimLen f d == 0 then .error (.nc "NC_EUNLIMPOS")
  else .ok ({ f with vars := f.vars ++ [⟨name, ty, dims, [], none⟩] }, f.vars.length)

/-- `nc_put_att_text` (library function called in netcdf_writer.cpp lines 62, 67). -/
def putAtt (f : File F) (id : Nat) (key text : String) : File F :=
  { f with vars := f.vars.modify id fun v => { v with atts := v.atts ++ [(key, text)] } }

/-- Number of elements of a variable; no record has been written to an unlimited dimension (library
behaviour behind netcdf_writer.cpp lines 196-212). -/
def count (f : File F) (dims : List Nat) : Nat := (dims.map (dimLen f)).prod

/-- `nc_put_var_int`, `nc_put_var_double` or `nc_put_var_text`, by `ty` (library functions called
in netcdf_writer.cpp lines 196, 206, 211). -/
def putVar (f : File F) (id : Nat) (ty : Ty) (data : Data F) : Except Err (File F) :=
  match f.vars[id]? with
  | none => .error (.nc "NC_ENOTVAR")
  | some v =>
    if v.ty = ty then .ok { f with vars := f.vars.modify id fun v => { v with data := some data } }
    else if v.ty = .chr ∨ ty = .chr then .error (.nc "NC_ECHAR")
    else .error (.undefined "conversion is not modelled")

/-! ## The writer -/

/-- The enumeration of netcdf_writer.hpp 36. -/
inductive Tag where
  | int
  | float
  | big
  | string
  deriving DecidableEq, Repr

/-- A stored `void*`: into an object of the caller, or to the copy made for a `big`
(netcdf_writer.cpp lines 80, 91, 98-106, 134, 146, 157, 174). -/
inductive Ptr (F : Type) where
  | obj (a : String)
  | copy (v : F)

/-- netcdf_writer.hpp 33-37. -/
structure Writer (F : Type) where
  file : File F
  ids : List Nat
  types : List Tag
  ptrs : List (Ptr F)

/-- Calls of `dim` and of the `put` variants (netcdf_writer.hpp 41-54). -/
inductive Op where
  | dim (name : String) (len : Nat)
  | int (name addr att units : String)
  | flt (name addr att units : String)
  | big (name : String) (val : Nat) (att units : String)
  | str (name addr att : String)
  | intVec (dim : Nat) (name addr att units : String)
  | fltVec (dim : Nat) (name addr att units : String)
  | nd (dims : List Nat) (name addr att units : String)
  deriving DecidableEq

/-- `add_attribute` (netcdf_writer.cpp 59-71). -/
def addAttribute (f : File F) (id : Nat) (str units : String) : File F :=
  let f := if str.length > 0 then putAtt f id "description" str else f
  if units.length > 0 then putAtt f id "units" units else f

/-- The common part of the `put` variants: define, push three entries, attributes
(netcdf_writer.cpp lines 76-81 and the same lines of the other variants). -/
def putCommon (w : Writer F) (name : String) (ty : Ty) (dims : List Nat) (tag : Tag) (p : Ptr F)
    (att units : String) : Except Err (Writer F) :=
  match defVar w.file name ty dims with
  | .error e => .error e
  | .ok (f, id) => .ok
    { file := addAttribute f id att units, ids := w.ids ++ [id], types := w.types ++ [tag]
      ptrs := w.ptrs ++ [p] }

/-- `"dim_"` and the length, at least five digits (netcdf_writer.cpp 117-119). -/
def strDim (len : Nat) : String :=
  let digits := Nat.toDigits 10 len
  String.ofList ("dim_".toList ++ List.replicate (5 - digits.length) '0' ++ digits)

/-- The dimension of a string (121-129). -/
def stringDim (f : File F) (len : Nat) : Except Err (File F × Nat) :=
  match inqDim f (strDim len) with
  | some d => .ok (f, d)
  | none => defDim f (strDim len) len

/-- `val.size()` of a string object (netcdf_writer.cpp line 115). -/
def strLen (m : Mem F) (a : String) : Except Err Nat :=
  match m a with
  | .chars l => .ok l.length
  | _ => .error (.undefined "not a string")

/-- One call.  `toF` converts a `big` (netcdf_writer.cpp 38-44, 73-171). -/
def step (toF : Nat → F) (m : Mem F) (w : Writer F) : Op → Except Err (Writer F)
  | .dim name len =>
    match defDim w.file name len with
    | .error e => .error e
    | .ok (f, _) => .ok { w with file := f }
  | .int name a att units => putCommon w name .int [] .int (.obj a) att units
  | .flt name a att units => putCommon w name .flt [] .float (.obj a) att units
  | .big name v att units => putCommon w name .flt [] .float (.copy (toF v)) att units
  | .str name a att =>
    match strLen m a with
    | .error e => .error e
    | .ok len =>
      match stringDim w.file len with
      | .error e => .error e
      | .ok (f, d) => putCommon { w with file := f } name .chr [d] .string (.obj a) att ""
  | .intVec d name a att units => putCommon w name .int [d] .int (.obj a) att units
  | .fltVec d name a att units => putCommon w name .flt [d] .float (.obj a) att units
  | .nd ds name a att units => putCommon w name .flt ds.reverse .float (.obj a) att units

/-- The first `n` elements of type `ty` at a pointer (the casts in netcdf_writer.cpp lines 196,
206, 211). -/
def deref (m : Mem F) (p : Ptr F) (ty : Ty) (n : Nat) : Except Err (Data F) :=
  match p with
  | .copy v => if ty = .flt ∧ n ≤ 1 then .ok (.flts ([v].take n)) else .error (.undefined "read of a copy")
  | .obj a =>
    match m a, ty with
    | .ints l, .int => if n ≤ l.length then .ok (.ints (l.take n)) else .error (.undefined "past the end")
    | .flts l, .flt => if n ≤ l.length then .ok (.flts (l.take n)) else .error (.undefined "past the end")
    | .chars l, .chr => if n ≤ l.length then .ok (.chars (l.take n)) else .error (.undefined "past the end")
    | _, _ => .error (.undefined "wrong type")

/-- Which call is made for a tag (196-213). -/
def tagTy : Tag → Option Ty
  | .int => some .int
  | .big => none
  | .string => some .chr
  | .float => some .flt

/-- One pass of the loop of `write_and_close` (189-214). -/
def writeOne (m : Mem F) (ids : List Nat) (types : List Tag) (ptrs : List (Ptr F)) (f : File F) (j : Nat) :
    Except Err (File F) :=
  match ids[j]?, types[j]?, ptrs[j]? with
  | some id, some tag, some p =>
    match tagTy tag, f.vars[id]? with
    | none, _ => .error (.undefined "unsigned long long is not modelled")
    | some _, none => .error (.nc "NC_ENOTVAR")
    | some ty, some v =>
      match deref m p ty (count f v.dims) with
      | .error e => .error e
      | .ok d => putVar f id ty d
  | _, _, _ => .error (.undefined "past the end of a vector")

/-- `write_and_close` (180-218). -/
def writeAndClose (m : Mem F) (w : Writer F) : Except Err (File F) :=
  (List.range w.ids.length).foldlM (writeOne m w.ids w.types w.ptrs) w.file

/-- A writer used from construction to closing: `base` is the empty file, or the existing one when
appending (13-30). -/
def run (toF : Nat → F) (m : Mem F) (base : File F) (ops : List Op) : Except Err (File F) :=
  match ops.foldlM (step toF m) ⟨base, [], [], []⟩ with
  | .error e => .error e
  | .ok w => writeAndClose m w

end Qsc.Netcdf
