/-!
# Output file names: `/repo/src/outfile.cpp` lines 5-24, `/repo/src/multiopt.cpp` lines 19-25

Strings are `List Char` (a C++ `std::string` is a list of bytes; nothing in these functions
depends on the alphabet except the literals).
-/

namespace Qsc.Outfile

/-- `std::string::rfind(c)`: index of the last occurrence, `none` for `npos` (library function,
called in outfile.cpp line 6). -/
def rfind (c : Char) : List Char → Option Nat
  | [] => none
  | x :: xs =>
    match rfind c xs with
    | some i => some (i + 1)
    | none => if x = c then some 0 else none

/-- What can go wrong (outfile.cpp lines 15-21). -/
inductive Err
  /-- `std::out_of_range` thrown by `substr` when `pos > size()` -/
  | outOfRange
  /-- lines 15-17, 19-21: "Input file must begin with 'qsc_in.'" -/
  | badName
  deriving DecidableEq, Repr

/-- `s.substr(pos, len)` (library function, called in outfile.cpp lines 11-22). -/
def substr (s : List Char) (pos len : Nat) : Except Err (List Char) :=
  if pos > s.length then .error .outOfRange else .ok ((s.drop pos).take len)

/-- The literal of line 19. -/
def qscIn : List Char := "qsc_in.".toList
/-- The literals of line 22. -/
def qscOut : List Char := "qsc_out.".toList
/-- The suffix of output files (outfile.cpp line 22). -/
def dotNc : List Char := ".nc".toList

/-- `qsc::outfile`, lines 5-24 of outfile.cpp. -/
def outfile (path : List Char) : Except Err (List Char) := do
  let (directory, infile) ←
    match rfind '/' path with
    | none => pure ([], path)                                      -- lines 7-8
    | some slash_pos => do                                         -- lines 9-13
        let d ← substr path 0 (slash_pos + 1)
        let f ← substr path (slash_pos + 1) (path.length - slash_pos - 1)
        pure (d, f)
  if infile.length < 7 then .error .badName                        -- lines 15-17
  else
    let infile_start ← substr infile 0 7                           -- line 18
    if infile_start ≠ qscIn then .error .badName                   -- lines 19-21
    else
      let ext ← substr infile 7 (infile.length - 7)                -- line 22
      pure (directory ++ qscOut ++ ext ++ dotNc)

/-- `std::to_string(j)` for a non-negative `int` (library function, called in multiopt.cpp line
24). -/
def toStr (j : Nat) : List Char := (Nat.repr j).toList

/-- `MultiOpt::run`, multiopt.cpp lines 20-24: the output name of stage `jopt`. -/
def stageOutfile (path : List Char) (jopt : Nat) : Except Err (List Char) := do
  let base ← outfile path
  let stem ← substr base 0 (base.length - 3)
  pure (stem ++ ['_'] ++ toStr jopt ++ dotNc)

end Qsc.Outfile
