import Verif.Model.Setup
import Verif.Model.MultiOptRun
import Verif.Model.ScanRun
import Verif.Model.MultiScanRun

/-!
# The program: `driver.cpp` with the five calculations
-/

namespace Qsc.Program
open Qsc.Netcdf (Mem)
open Qsc.Single Qsc.Toml Qsc.Setup

/-- A parsed input file (driver.cpp line 50): the keys before the first section, and the sections. -/
structure Doc where
  root : Table ℝ
  sections : Sections.File ℝ

/-- Lines 51-53 of driver.cpp.  A section of this name is a table, not a string. -/
def generalOption (d : Doc) : Except Toml.Err String :=
  if d.sections.any fun s => s.1 == "general_option" then .error .typeError
  else (tomlRead asStr d.root "general_option" "single" []).map (·.1)

/-- What is given to the program on `N + 1` processes: libraries, clocks, random numbers, and what is in memory
before it is set, for each of the calculations (driver.cpp 56-81). -/
structure Env (N : Nat) where
  L : Lib ℝ
  m0 : Mem ℝ
  m1 : Mem ℝ
  gsl : Nat → (p : Nat) → OptLoop.Gsl ℝ p
  stageM0 : Nat → Mem ℝ
  stageM1 : Nat → Mem ℝ
  stageGsl : Nat → Nat → (p : Nat) → OptLoop.Gsl ℝ p
  scan : ScanRun.World N
  multi : MultiScanRun.World N

/-- Lines 22-85 of driver.cpp up to the choice; an exception of toml11 passes through. -/
def action (argc : Nat) (d : Doc) : Except Toml.Err Action :=
  if argc ≠ 2 then .ok .usage
  else (generalOption d).map fun g => driver argc (some g)

/-- The program can end with this return value, having written these files one after the other (driver.cpp 19-95).
Without MPI only one process is considered.  Time and printing are left out. -/
inductive Ends {N : Nat} (e : Env N) (argc : Nat) (path : List Char) (d : Doc) :
    Nat → List (List Char × Netcdf.File ℝ) → Prop where
  | usage : action argc d = .ok .usage → Ends e argc path d 1 []                                    -- 22-31
  | single {name r f} : action argc d = .ok (.run .single false) →                                  -- 55-57
      Single.run e.L e.m0 path d.sections = .ok (name, r, f) → Ends e argc path d 0 [(name, f)]
  | random {name files} : action argc d = .ok (.run .random true) →                                 -- 59-65
      ScanRun.Ends e.scan path d.sections name files → Ends e argc path d 0 (files.map fun f => (name, f))
  | opt {name st f} : action argc d = .ok (.run .opt false) →                                       -- 67-69
      OptRun.run e.L e.gsl e.m0 e.m1 path d.sections = .ok (name, st, f) → Ends e argc path d 0 [(name, f)]
  | multiopt {out total} : action argc d = .ok (.run .multiopt false) →                             -- 71-73
      MultiOptRun.run e.L e.stageGsl e.stageM0 e.stageM1 path d.sections = .ok (out, total) →
      Ends e argc path d 0 (out.map fun x => (x.1, x.2.2))
  | multioptScan {name files} : action argc d = .ok (.run .multioptScan true) →                     -- 75-81
      MultiScanRun.Ends e.multi path d.sections name files → Ends e argc path d 0 (files.map fun f => (name, f))

end Qsc.Program
