import Verif.Model.Setup

/-!
# `optimize.cpp` 16-218, 845-923, `opt_allocate.cpp`, `multiopt.cpp`: the optimization loop

The least-squares library is an arbitrary script: for each refinement step it says which points are
evaluated, which position is current after each iteration, whether the iteration made no progress
and whether the convergence test asks to continue.  The driver loop around it is that of GSL
(multifit_nlinear/fdf.c, `gsl_multifit_nlinear_driver`): a callback before the first iteration and
one after each, at least one iteration, no callback if the very first iteration makes no progress.
`gsl_multifit_nlinear_alloc` stops the program if there are fewer terms than parameters.  The
physics (`q.calculate`) is an arbitrary function that may throw.  The history arrays
`iter_*` (opt_allocate.cpp 11-60) are one array of records, with `rows` rows for the Fourier
amplitudes.  `set_residuals` appears here only through the number of terms (see `Model/OptResid`).
Printing and memory management are left out.  The check of `single` (double precision only) is left
out, and the two switches over enumerations that cannot fail (61-80, 159-168).  That `q.allocate()`
reads order flags before they are set is the subject of C52 and ignored here.  `log` and the field
`x` of the records are ghost variables.
-/

namespace Qsc.OptLoop

open Qsc.OptState

/-- One iteration of the library (library behaviour behind `gsl_multifit_nlinear_driver`,
optimize.cpp line 184). -/
structure Iter (K : Type) (p : Nat) where
  evals : List (Vector K p)
  pos : Vector K p
  noProgress : Bool
  continue' : Bool

/-- The library in one refinement step: the points evaluated by `gsl_multifit_nlinear_init`, and
the iterations (optimize.cpp lines 183-185). -/
structure Gsl (K : Type) (p : Nat) where
  initEvals : List (Vector K p)
  iters : Nat → Iter K p

/-- The surroundings: library, physics and the number of residual terms (optimize.cpp lines
183-186, 247-248). -/
structure Env (K P : Type) where
  gsl : Nat → (p : Nat) → Gsl K p
  /-- `q.calculate()`. -/
  calculate : Config K → Nat → Except String P
  /-- `n_terms` as a function of `nphi`. -/
  terms : Nat → Nat

/-- One column of the history; `x` is the state vector of the library (ghost) (optimize.cpp lines
845-923). -/
structure Rec (K P : Type) where
  step : Nat
  x : List K
  q : Config K
  phys : P

/-- The members of `Opt` that the loop changes (opt.hpp lines 28-92). -/
structure St (K P : Type) where
  q : Config K
  nphi : Nat
  fl : Flags
  nParams : Nat
  nTerms : Nat
  nIter : Nat
  nEvals : Nat
  hist : List (Option (Rec K P))
  log : List (Rec K P)

variable {K P : Type}

/-- Helper of the model; no counterpart in the code. -/
def liftThrow {α : Type} : Except String α → Except Err α
  | .ok a => .ok a
  | .error m => .error (.throw m)

/-- `unpack_state_vector(x); q.calculate(); set_residuals(f)` (247-250, 868-872). -/
def evalAt (e : Env K P) (x : List K) (st : St K P) : Except Err (St K P × P) :=
  (unpackStateVector st.nParams st.fl st.q x).bind fun q =>
  (liftThrow (e.calculate q st.nphi)).bind fun ph =>
  if e.terms st.nphi = st.nTerms then .ok ({ st with q := q }, ph) else .error .assert

/-- `gsl_residual_function` (222-254), counted in `nevalf`. -/
def residualFn (e : Env K P) (x : List K) (st : St K P) : Except Err (St K P) :=
  (evalAt e x st).bind fun r => .ok { r.1 with nEvals := r.1.nEvals + 1 }

/-- The calls of `gsl_residual_function` at a list of points, in order (optimize.cpp lines
218-252). -/
def evalAll (e : Env K P) : List (List K) → St K P → Except Err (St K P)
  | [], st => .ok st
  | x :: xs, st => (residualFn e x st).bind (evalAll e xs)

/-- `gsl_callback` (845-923). -/
def callback (e : Env K P) (rows j : Nat) (x : List K) (st : St K P) : Except Err (St K P) :=
  (evalAt e x st).bind fun r =>
  let st := r.1
  if st.nIter < st.hist.length ∧ st.q.R0c.length ≤ rows ∧ st.q.R0c.length ≤ st.q.R0s.length ∧
      st.q.R0c.length ≤ st.q.Z0c.length ∧ st.q.R0c.length ≤ st.q.Z0s.length then
    let c : Rec K P := ⟨j, x, st.q, r.2⟩
    .ok { st with hist := st.hist.set st.nIter (some c), nIter := st.nIter + 1, log := st.log ++ [c] }
  else .error (.undefined "history")

/-- The iterations of `gsl_multifit_nlinear_driver`; `left` iterations may follow this one
(optimize.cpp lines 184-185). -/
def iterate (e : Env K P) (rows j : Nat) {p : Nat} (g : Gsl K p) :
    Nat → Nat → St K P → Except Err (St K P)
  | left, i, st =>
    (evalAll e ((g.iters i).evals.map Vector.toList) st).bind fun st =>
    if (g.iters i).noProgress ∧ i = 0 then .ok st
    else
      (callback e rows j (g.iters i).pos.toList st).bind fun st =>
      match left with
      | 0 => .ok st
      | left + 1 => if (g.iters i).continue' then iterate e rows j g left (i + 1) st else .ok st

/-- `gsl_multifit_nlinear_init` and `gsl_multifit_nlinear_driver` (184-187). -/
def drive (e : Env K P) (rows j : Nat) {p : Nat} (g : Gsl K p) (maxiter : Nat) (x0 : List K)
    (st : St K P) : Except Err (St K P) :=
  (evalAll e (g.initEvals.map Vector.toList) st).bind fun st =>
  (callback e rows j x0 st).bind fun st =>
  iterate e rows j g (maxiter - 1) 0 st

/-- `arr[i] = true` (optimize.cpp lines 95-96). -/
def setTrue (bs : List Bool) (i : Nat) : Except Err (List Bool) :=
  if i < bs.length then .ok (bs.set i true) else .error (.undefined "vary array")

/-- `if (j_fourier_refine > 0) { vary_R0c[..] = true; vary_Z0s[..] = true; }` (93-97). -/
def enable (oldsize j : Nat) (st : St K P) : Except Err (St K P) :=
  if 0 < j then
    (setTrue st.fl.R0c (oldsize + j - 1)).bind fun r =>
    (setTrue st.fl.Z0s (oldsize + j - 1)).bind fun z =>
    .ok { st with fl := { st.fl with R0c := r, Z0s := z } }
  else .ok st

/-- `init_residuals`: the number of terms (321-450). -/
def countTerms (e : Env K P) (st : St K P) : Except Err (St K P) :=
  if e.terms st.nphi < 1 then .error (.throw "There must be at least 1 residual term.")
  else .ok { st with nTerms := e.terms st.nphi }

/-- The choice of `nphi` (98-107). -/
def chooseNphi (e : Env K P) (nphis : List Nat) (j : Nat) (st : St K P) : Except Err (St K P) :=
  if 0 < nphis.length then
    match nphis[j]? with
    | none => .error (.undefined "nphi")
    | some n => countTerms e { st with nphi := Setup.oddNphi n }
  else if j = 0 then countTerms e st
  else .ok st

/-- `q.init()` (qsc.cpp 66-69): the order flags and an odd `nphi`; returns `q.order_r2p1`. -/
def initQ (order : String) (st : St K P) : Except Err (Bool × St K P) :=
  (Setup.validate order).bind fun o => .ok (o.r2p1, { st with nphi := Setup.oddNphi st.nphi })

/-- The loop over refinement steps (86-216) from step `j` on; `left` steps may follow. -/
def refineLoop [Zero K] (e : Env K P) (order : String) (rows oldsize maxIter : Nat)
    (nphis : List Nat) :
    Nat → Nat → St K P → Except Err (St K P)
  | left, j, st =>
    if maxIter ≤ st.nIter + 1 then .ok st
    else
      (enable oldsize j st).bind fun st =>
      (chooseNphi e nphis j st).bind fun st =>
      (initParameters st.fl).bind fun np =>
      let st := { st with nParams := np.1 }
      (initQ order st).bind fun r =>
      let st := r.2
      if ¬ r.1 then .ok st
      else if st.nTerms < st.nParams then .error (.throw "insufficient data points, n < p")
      else
        (setStateVector st.nParams st.fl st.q (List.replicate st.nParams 0)).bind fun x0 =>
        (drive e rows j (e.gsl j st.nParams) (maxIter - 1 - st.nIter) x0 st).bind fun st =>
        match left with
        | 0 => .ok st
        | left + 1 => refineLoop e order rows oldsize maxIter nphis left (j + 1) st

/-- `arr = old; old.resize(newsize, fill); for (j < oldsize) old[j] = arr[j]` (33-57). -/
def pad {α : Type} (xs : List α) (oldsize extra : Nat) (fill : α) : Except Err (List α) :=
  if oldsize ≤ xs.length then .ok (xs.take oldsize ++ List.replicate extra fill)
  else .error (.undefined "axis_arr")

/-- The settings of one `Opt` (opt.hpp lines 29, 41-47). -/
structure Settings where
  fl : Flags
  extra : Nat
  maxIter : Nat
  nphis : List Nat

/-- `Opt::allocate` (opt_allocate.cpp) followed by `Opt::optimize` (optimize.cpp 16-218).
`fourier_refine` is `extra`, assumed nonnegative like `max_iter`. -/
def optimize [Zero K] (e : Env K P) (s : Settings) (order : String) (q : Config K) (nphi : Nat) :
    Except Err (St K P) :=
  let nphi := Setup.oddNphi nphi
  let rows := q.R0c.length + s.extra
  let hist : List (Option (Rec K P)) := List.replicate s.maxIter none
  if s.fl.R0c.length ≠ q.R0c.length then .error (.throw "Size of vary_R0c is incorrect")
  else if s.fl.R0s.length ≠ q.R0s.length then .error (.throw "Size of vary_R0s is incorrect")
  else if s.fl.Z0c.length ≠ q.Z0c.length then .error (.throw "Size of vary_Z0c is incorrect")
  else if s.fl.Z0s.length ≠ q.Z0s.length then .error (.throw "Size of vary_Z0s is incorrect")
  else
    let oldsize := q.R0c.length
    (pad q.R0c oldsize s.extra 0).bind fun R0c =>
    (pad q.R0s oldsize s.extra 0).bind fun R0s =>
    (pad q.Z0c oldsize s.extra 0).bind fun Z0c =>
    (pad q.Z0s oldsize s.extra 0).bind fun Z0s =>
    (pad s.fl.R0c oldsize s.extra false).bind fun vR0c =>
    (pad s.fl.R0s oldsize s.extra false).bind fun vR0s =>
    (pad s.fl.Z0c oldsize s.extra false).bind fun vZ0c =>
    (pad s.fl.Z0s oldsize s.extra false).bind fun vZ0s =>
    refineLoop e order rows oldsize s.maxIter s.nphis s.extra 0
      { q := { q with R0c := R0c, R0s := R0s, Z0c := Z0c, Z0s := Z0s }
        nphi := nphi
        fl := { s.fl with R0c := vR0c, R0s := vR0s, Z0c := vZ0c, Z0s := vZ0s }
        nParams := 0, nTerms := 0, nIter := 0, nEvals := 0, hist := hist, log := [] }

/-! ## `multiopt.cpp` 60-104 -/

/-- What `opts[jopt].q = opts[jopt - 1].q` hands on. -/
structure Start (K : Type) where
  q : Config K
  nphi : Nat
  order : String

/-- One stage: its surroundings, settings, and the configuration read from the input file
(multiopt.hpp line 14). -/
structure Stage (K P : Type) where
  env : Env K P
  set : Settings
  start : Start K

/-- `MultiOpt::optimize` (multiopt.cpp 60-104): `prev` is the configuration at the end of the
previous stage, `n` the number of evaluations so far.  Returns the final stages and the total number
of evaluations. -/
def runStages [Zero K] : List (Stage K P) → Option (Start K) → Nat →
    Except Err (List (St K P) × Nat)
  | [], _, n => .ok ([], n)
  | s :: ss, prev, n =>
    let a := prev.getD s.start
    (optimize s.env s.set a.order a.q a.nphi).bind fun st =>
    (runStages ss (some ⟨st.q, st.nphi, a.order⟩) (n + st.nEvals)).bind fun r =>
    .ok (st :: r.1, r.2)

/-- `MultiOpt::input` and `MultiOpt::run` without files (multiopt.cpp 19-55): `nopts` stages. -/
def multiOpt [Zero K] (nopts : Int) (stage : Nat → Stage K P) :
    Except Err (List (St K P) × Nat) :=
  if nopts < 1 then
    .error (.throw "In the multiopt parameter list, nopts must be at least 1.")
  else runStages ((List.range nopts.toNat).map stage) none 0

end Qsc.OptLoop
