/-!
# Reading input sections: `/repo/src/toml_util.cpp`, `/repo/src/qsc_input.cpp`,
`/repo/src/scan_input.cpp`

A parsed TOML table is a finite association list from keys to values (toml11 guarantees
unique keys; iteration order is unspecified, a list order here).  `F` is the float type,
`ofInt` the conversion `static_cast<double>`.
-/

namespace Qsc.Toml

/-- Keys of a table (toml11, called in toml_util.cpp lines 8-109). -/
abbrev Key := String

/-- TOML values that matter here (dates are not used) (values of toml11, read in toml_util.cpp
lines 8-109). -/
inductive Value (F : Type) where
  | int (i : Int)
  | flt (x : F)
  | bool (b : Bool)
  | str (s : String)
  | arr (vs : List (Value F))

/-- A table (toml11, called in toml_util.cpp lines 8-109). -/
abbrev Table (F : Type) := List (Key × Value F)

/-- Exceptions: of the wrong type (toml11, toml_util.cpp lines 12-106) or unused key (toml_util.cpp
line 144). -/
inductive Err
  /-- toml11's `type_error` -/
  | typeError
  /-- toml_util.cpp line 144: "Unused key in input file: ..." -/
  | unusedKey (k : Key)
  /-- failed `assert` in `pad_vector` (toml_util.cpp line 114) -/
  | assertFailed
  deriving DecidableEq, Repr

/-- `indata.contains(k)` together with `toml::find(indata, k)` (toml_util.cpp lines 11-12 and the
like). -/
def find? {F : Type} (t : Table F) (k : Key) : Option (Value F) :=
  (t.find? (fun kv => kv.1 == k)).map (·.2)

/-- `toml::find<int>` : line 12. -/
def asInt {F : Type} : Value F → Except Err Int
  | .int i => .ok i
  | _ => .error .typeError

/-- Lines 30-35: a bool may be given as `true`/`false` or as an integer. -/
def asBool {F : Type} : Value F → Except Err Bool
  | .bool b => .ok b
  | .int i => .ok (i ≠ 0)
  | _ => .error .typeError

/-- Lines 46-51: a float may be given as a float or as an integer. -/
def asFloat {F : Type} (ofInt : Int → F) : Value F → Except Err F
  | .flt x => .ok x
  | .int i => .ok (ofInt i)
  | _ => .error .typeError

/-- `toml::find<std::string>`: line 61. -/
def asStr {F : Type} : Value F → Except Err String
  | .str s => .ok s
  | _ => .error .typeError

/-- One element of `toml::find<std::vector<double>>` (toml_util.cpp line 70); an integer is
refused. -/
def floatElem {F : Type} : Value F → Except Err F
  | .flt x => .ok x
  | _ => .error .typeError

/-- `toml::find<std::vector<double>>`: lines 70-73; toml11 does not convert integers here. -/
def asVector {F : Type} : Value F → Except Err (List F)
  | .arr vs => vs.mapM floatElem
  | _ => .error .typeError

/-- The generic shape of every `toml_read` overload (lines 8-109): convert and assign if the
key is present, leave the variable alone otherwise, and record the key in `varlist`. -/
def tomlRead {F α : Type} (conv : Value F → Except Err α) (t : Table F) (k : Key)
    (var : α) (varlist : List Key) : Except Err (α × List Key) :=
  match find? t k with
  | some x => do
      let v ← conv x
      pure (v, varlist ++ [k])
  | none => pure (var, varlist ++ [k])

/-- `toml_unused`, lines 123-147. -/
def tomlUnused {F : Type} (varlist : List Key) : Table F → Except Err Unit
  | [] => .ok ()
  | (k, _) :: rest =>
    if varlist.contains k then tomlUnused varlist rest else .error (.unusedKey k)

/-- `pad_vector`, lines 113-119.  `v.resize(newsize, 0.0)` makes `newsize` zeros, then the
old entries are copied back. -/
def padVector {F : Type} (zero : F) (v : List F) (newsize : Nat) : Except Err (List F) :=
  if v.length ≤ newsize then .ok (v ++ List.replicate (newsize - v.length) zero)
  else .error .assertFailed

/-- Lines 44-52 of qsc_input.cpp and 68-84 of scan_input.cpp: all arrays of the group are
padded to the maximum of their sizes (starting from 0). -/
def padAll {F : Type} (zero : F) (vs : List (List F)) : Except Err (List (List F)) :=
  let newsize := vs.foldl (fun m v => max m v.length) 0
  vs.mapM (fun v => padVector zero v newsize)

/-- The inputs of a single configuration read by `Qsc::input` (qsc.hpp lines 61-63, 78;
qsc_input.cpp). -/
structure QscIn (F : Type) where
  nphi : Int
  nfp : Int
  eta_bar : F
  spsi : Int
  sG : Int
  B0 : F
  I2 : F
  sigma0 : F
  B2s : F
  B2c : F
  p2 : F
  max_newton_iterations : Int
  max_linesearch_iterations : Int
  newton_tolerance : F
  verbose : Int
  order_r_option : String
  R0c : List F
  R0s : List F
  Z0c : List F
  Z0s : List F

/-- `Qsc::input` (qsc_input.cpp lines 17-52) on the already parsed `[qsc]` section.
Printing is not modelled. -/
def qscInput {F : Type} (ofInt : Int → F) (zero : F) (t : Table F) (d : QscIn F) :
    Except Err (QscIn F) := do
  let vl : List Key := []
  let (nphi, vl) ← tomlRead asInt t "nphi" d.nphi vl
  let (nfp, vl) ← tomlRead asInt t "nfp" d.nfp vl
  let (eta_bar, vl) ← tomlRead (asFloat ofInt) t "eta_bar" d.eta_bar vl
  let (spsi, vl) ← tomlRead asInt t "spsi" d.spsi vl
  let (sG, vl) ← tomlRead asInt t "sG" d.sG vl
  let (B0, vl) ← tomlRead (asFloat ofInt) t "B0" d.B0 vl
  let (I2, vl) ← tomlRead (asFloat ofInt) t "I2" d.I2 vl
  let (sigma0, vl) ← tomlRead (asFloat ofInt) t "sigma0" d.sigma0 vl
  let (B2s, vl) ← tomlRead (asFloat ofInt) t "B2s" d.B2s vl
  let (B2c, vl) ← tomlRead (asFloat ofInt) t "B2c" d.B2c vl
  let (p2, vl) ← tomlRead (asFloat ofInt) t "p2" d.p2 vl
  let (mni, vl) ← tomlRead asInt t "max_newton_iterations" d.max_newton_iterations vl
  let (mli, vl) ← tomlRead asInt t "max_linesearch_iterations" d.max_linesearch_iterations vl
  let (nt, vl) ← tomlRead (asFloat ofInt) t "newton_tolerance" d.newton_tolerance vl
  let (verbose, vl) ← tomlRead asInt t "verbose" d.verbose vl
  let (oro, vl) ← tomlRead asStr t "order_r_option" d.order_r_option vl
  let (R0c, vl) ← tomlRead asVector t "R0c" d.R0c vl
  let (R0s, vl) ← tomlRead asVector t "R0s" d.R0s vl
  let (Z0c, vl) ← tomlRead asVector t "Z0c" d.Z0c vl
  let (Z0s, vl) ← tomlRead asVector t "Z0s" d.Z0s vl
  let _ ← tomlUnused vl t
  let newsize := max (max (max (max 0 R0c.length) R0s.length) Z0c.length) Z0s.length
  let R0c ← padVector zero R0c newsize
  let R0s ← padVector zero R0s newsize
  let Z0c ← padVector zero Z0c newsize
  let Z0s ← padVector zero Z0s newsize
  pure { nphi := nphi, nfp := nfp, eta_bar := eta_bar, spsi := spsi, sG := sG, B0 := B0,
         I2 := I2, sigma0 := sigma0, B2s := B2s, B2c := B2c, p2 := p2,
         max_newton_iterations := mni, max_linesearch_iterations := mli,
         newton_tolerance := nt, verbose := verbose, order_r_option := oro,
         R0c := R0c, R0s := R0s, Z0c := Z0c, Z0s := Z0s }

end Qsc.Toml
