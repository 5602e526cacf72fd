import Verif.Model.Newton

/-!
# What the Newton solver should do

The step rule of newton.cpp 6-30 (the comment) and 55-97, written as a relation on states, without
loop variables: the residual and its norm are always those of the state.
-/

namespace Qsc.Spec.Newton

open Qsc.Newton

variable {X R D K : Type}

/-- The squared norm of the residual of a state. -/
def size (e : Env X R D K) (x : X) : K := e.nrm (e.res x)

/-- Trial `k` of iteration `j` from state `x`. -/
def trial (e : Env X R D K) (j : Nat) (x : X) (k : Nat) : X := e.move x (e.dir j x (e.res x)) k

/-- Trials `0 .. k - 1` do not decrease the norm. -/
def NoneBefore (e : Env X R D K) (j : Nat) (x : X) (k : Nat) : Prop :=
  ∀ i < k, e.lt (size e (trial e j x i)) (size e x) = false

/-- `y` is the next state: the first of the `L` trials that decreases the norm; or the last trial,
if none does but the last does not increase it; or `x` itself if there are no trials. -/
inductive Next (e : Env X R D K) (L j : Nat) (x : X) : X → Prop
  | decrease (k : Nat) : k < L → NoneBefore e j x k →
      e.lt (size e (trial e j x k)) (size e x) = true → Next e L j x (trial e j x k)
  | stall (k : Nat) : L = k + 1 → NoneBefore e j x L →
      e.lt (size e x) (size e (trial e j x k)) = false → Next e L j x (trial e j x k)
  | none : L = 0 → Next e L j x x

/-- Runs with at most `f` further iterations, from iteration `j` and state `x`, with their exit. -/
inductive Run (e : Env X R D K) (L : Nat) : Nat → Nat → X → Status → X → Prop
  | converged {f j x} : e.lt (size e x) e.tolSq = true → Run e L f j x .converged x
  | limit {j x} : e.lt (size e x) e.tolSq = false → Run e L 0 j x .maxIterations x
  | failed {f j x} (k : Nat) : e.lt (size e x) e.tolSq = false → L = k + 1 → NoneBefore e j x L →
      e.lt (size e x) (size e (trial e j x k)) = true →
      Run e L (f + 1) j x .linesearchFailed x
  | step {f j x y s z} : e.lt (size e x) e.tolSq = false → Next e L j x y →
      Run e L f (j + 1) y s z → Run e L (f + 1) j x s z

end Qsc.Spec.Newton
