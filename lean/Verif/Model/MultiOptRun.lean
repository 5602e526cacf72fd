import Verif.Model.OptRun

/-!
# A multi-stage optimization from the input file to the output files: `MultiOpt::run` (multiopt.cpp 19-32)

The input file is read by the model of `MultiOpt::input`, the stages are those of `Model/Pipeline` with the physics of
`Model/Single`, and each output file is written as in `Model/OptRun`.  Numbers are elements of a field.  Printing and
timing are left out.
-/

namespace Qsc.MultiOptRun

open Qsc.Netcdf (Mem)
open Qsc.Toml (QscIn)
open Qsc.Single (Lib Result)

variable {K : Type}

/-- What can go wrong in a run (multiopt.cpp 19-32). -/
inductive Err
  /-- `qsc::outfile`, or a name of a stage (multiopt.cpp 20-25) -/
  | name (e : Outfile.Err)
  /-- `input` or `optimize` (21, 30) -/
  | opt (e : Pipeline.Err)
  /-- writing the file of stage `j` (31) -/
  | stage (j : Nat) (e : OptRun.Err)
  /-- Stage `j` makes no iteration.  Its file then has results that were never calculated or those of the stage
  before; this is not modelled. -/
  | idle (j : Nat)
  /-- an input outside the model -/
  | outside (what : String)
  deriving DecidableEq

variable [Field K]

/-- `opts[jopt].q` after `opts[jopt].q = opts[jopt - 1].q` (multiopt.cpp 89): what is not varied is that of the first
stage. -/
def firstQ : List (Sections.OptObj K) → Option (QscIn K)
  | [] => none
  | o :: _ => some o.q

/-- `MultiOpt::write_netcdf` (multiopt.cpp 107-111) from stage `j` on, which started with `modes` modes.  `q` is
what is not varied.  The arrays of the history got their sizes from `opts[jopt].allocate()` (98) before the stage. -/
def writeStages (L : Lib K) [DecidableEq K] (m0 m1 : Nat → Mem K) (q : QscIn K) : Nat → Nat →
    List (Sections.OptObj K) → List (OptLoop.St K (Result K)) → Except Err (List (Netcdf.File K))
  | j, modes, o :: os, st :: sts =>
    match Pipeline.rawOf o.mem, Pipeline.weightsOf o.mem, OptRun.targetsOf o.mem with
    | some s, some w, some t =>
      if st.nIter = 0 then .error (.idle j)
      else
        match OptRun.write L (m0 j) (m1 j) ⟨q, o.group, o.mem⟩ w t (modes + s.refine.toNat) st with
        | .error e => .error (.stage j e)
        | .ok f =>
          match writeStages L m0 m1 q (j + 1) st.q.R0c.length os sts with
          | .error e => .error e
          | .ok fs => .ok (f :: fs)
    | _, _, _ => .error (.opt (.run (.undefined "member")))
  | _, _, _, _ => .ok []

/-- `MultiOpt::run` (multiopt.cpp 19-32) for a parsed input file, in the order of the calls.  The result has for
each stage the name of its output file, its state at the end and its file; and the number of evaluations.  In single
precision the stages do nothing (optimize.cpp 18-21). -/
def run (L : Lib K) [DecidableEq K] (gsl : Nat → Nat → (p : Nat) → OptLoop.Gsl K p) (m0 m1 : Nat → Mem K)
    (path : List Char) (file : Sections.File K) :
    Except Err (List (List Char × OptLoop.St K (Result K) × Netcdf.File K) × Nat) :=
  match Outfile.outfile path with                                                              -- line 20
  | .error e => .error (.name e)
  | .ok _ =>
    match Sections.multioptInput (fun i => (i : K)) 0 file (Pipeline.optNew L.lit L.single) Pipeline.multioptNew with -- 21
    | .error e => .error (.opt (.input e))
    | .ok r =>
      match (List.range r.opts.length).mapM (Outfile.stageOutfile path), firstQ r.opts with       -- 22-25
      | .error e, _ => .error (.name e)
      | .ok _, none => .error (.outside "opts")
      | .ok names, some q =>
        if q.nfp ≤ 0 then .error (.outside "nfp")
        else if L.single then .error (.idle 0)
        else
          match Pipeline.runStages (fun j => OptRun.world L (gsl j) q) 0 r.opts none 0 with        -- 30
          | .error e => .error (.opt e)
          | .ok (sts, total) =>
            match writeStages L m0 m1 q 0 q.R0c.length r.opts sts with                            -- 31
            | .error e => .error e
            | .ok fs => .ok (names.zip (sts.zip fs), total)

end Qsc.MultiOptRun
