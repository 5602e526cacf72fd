/-!
# `newton.cpp` 31-98: Newton's method with a line search

The residual function, the norm, the comparison and the result of the linear solve are arbitrary;
the solve may even depend on the iteration number.  `verbose` printing is left out.  Calls are
recorded in a trace.
-/

namespace Qsc.Newton

/-- The return values (qsc.hpp lines 28-31). -/
inductive Status
  | converged
  | maxIterations
  | linesearchFailed
  deriving DecidableEq, Repr

/-- What the solver calls (newton.cpp lines 45-80: calls of the residual and Jacobian functions). -/
inductive Event (X : Type)
  | res (x : X)
  | jac (x : X)
  | solve
  deriving DecidableEq

/-- The problem: residual, squared norm, comparison `<`, squared tolerance, direction from the
linear solve in iteration `j`, and `state0 + 2^-k * direction`. -/
structure Env (X R D K : Type) where
  res : X → R
  nrm : R → K
  lt : K → K → Bool
  tolSq : K
  dir : Nat → X → R → D
  move : X → D → Nat → X

variable {X R D K : Type}

/-- `state`, `residual`, `residual_norm_sq` and the calls so far (newton.cpp lines 31-50). -/
structure Cur (X R K : Type) where
  x : X
  r : R
  n : K
  trace : List (Event X)

/-- The line search loop (newton.cpp 71-83): `f` passes are left, `k` is the number of halvings. -/
def lineSearch (e : Env X R D K) (x0 : X) (d : D) (last : K) : Nat → Nat → Cur X R K → Cur X R K
  | 0, _, c => c
  | f + 1, k, c =>
    let x := e.move x0 d k
    let r := e.res x
    let n := e.nrm r
    let c' : Cur X R K := ⟨x, r, n, c.trace ++ [.res x]⟩
    if e.lt n last then c' else lineSearch e x0 d last f (k + 1) c'

/-- The result of the solver (newton.cpp lines 92-98). -/
structure Out (X R : Type) where
  status : Status
  state : X
  residual : R
  trace : List (Event X)

/-- The Newton loop (newton.cpp 55-97): `f` passes are left, `j` is `j_newton`, `L` is
`max_linesearch_iterations`. -/
def loop (e : Env X R D K) (L : Nat) : Nat → Nat → Cur X R K → Out X R
  | 0, _, c => ⟨if e.lt c.n e.tolSq then .converged else .maxIterations, c.x, c.r, c.trace⟩
  | f + 1, j, c =>
    let last := c.n
    if e.lt c.n e.tolSq then ⟨.converged, c.x, c.r, c.trace⟩
    else
      let x0 := c.x
      let d := e.dir j c.x c.r
      let c' := lineSearch e x0 d last L 0 ⟨c.x, c.r, c.n, c.trace ++ [.jac c.x, .solve]⟩
      if e.lt last c'.n then ⟨.linesearchFailed, x0, c'.r, c'.trace⟩
      else loop e L f (j + 1) c'

/-- `newton_solve` (newton.cpp 31-98); non-positive limits mean no pass. -/
def newton (e : Env X R D K) (maxNewton maxLinesearch : Int) (x : X) : Out X R :=
  let r := e.res x
  loop e maxLinesearch.toNat maxNewton.toNat 0 ⟨x, r, e.nrm r, [.res x]⟩

/-- The last state at which the residual was evaluated.  `sigma_eq_residual` (calculate_r1.cpp
11-27) stores `iota` and `sigma` of that state in the configuration, and `solve_sigma_equation`
(54-89) does not read `state` afterwards. -/
def lastEvaluated : List (Event X) → Option X
  | [] => none
  | .res x :: t => (lastEvaluated t).or (some x)
  | _ :: t => lastEvaluated t

end Qsc.Newton
