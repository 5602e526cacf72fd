import Verif.Spec.OptState
import Verif.Model.OptLoop

/-!
# What the optimization loop should do
-/

namespace Qsc.Spec.OptLoop

open Qsc.OptState Qsc.Spec.OptState Qsc.OptLoop

variable {K P : Type}

/-- The computation ends normally with a result that satisfies `Q`, or with an exception: it never
leaves an array and no `assert` fails. -/
def Safe {α : Type} (Q : α → Prop) : Except Err α → Prop
  | .ok a => Q a
  | .error e => ∃ m, e = .throw m

/-- The same, and the message of the exception satisfies `T`. -/
def Ends {α : Type} (T : String → Prop) (Q : α → Prop) : Except Err α → Prop
  | .ok a => Q a
  | .error e => ∃ m, e = .throw m ∧ T m

/-- The configuration with `F` further modes of amplitude zero. -/
def grow [Zero K] (F : Nat) (q : Config K) : Config K :=
  { q with
    R0c := q.R0c ++ List.replicate F 0, R0s := q.R0s ++ List.replicate F 0
    Z0c := q.Z0c ++ List.replicate F 0, Z0s := q.Z0s ++ List.replicate F 0 }

/-- The parameters that may vary in refinement step `j` if the user gave `N` modes: those the user
chose, and the first `j` new modes of `R0c` and `Z0s`. -/
def MayVary (fl : Flags) (N j : Nat) : Param → Prop
  | .R0c k => Varied fl (.R0c k) ∨ (N ≤ k ∧ k < N + j)
  | .Z0s k => Varied fl (.Z0s k) ∨ (N ≤ k ∧ k < N + j)
  | p => Varied fl p

/-- All four arrays have `n` entries. -/
structure AllSize {K : Type} (n : Nat) (q : Config K) : Prop where
  R0c : q.R0c.length = n
  R0s : q.R0s.length = n
  Z0c : q.Z0c.length = n
  Z0s : q.Z0s.length = n

/-- The resolution used in step `j`: the next odd number from the list, or from `nphi` if there is
no list. -/
def gridAt (nphis : List Nat) (nphi j : Nat) : Nat :=
  let n := if nphis = [] then nphi else nphis.getD j 0
  if n % 2 = 0 then n + 1 else n

/-- A record of step `r.step`: all modes are there, only the permitted parameters differ from the
start `q0`, the vector holds the varied parameters in the documented order, and the physics was
computed from this very configuration. -/
structure RecOk (e : Env K P) (s : Settings) (N nphi : Nat) (q0 : Config K) (ps : List Param)
    (r : Rec K P) : Prop where
  step : r.step ≤ s.extra
  size : AllSize (N + s.extra) r.q
  fixed : ∀ p, ¬ MayVary s.fl N r.step p → get r.q p = get q0 p
  count : r.x.length = ps.length + 2 * r.step
  vector : ∃ qs : List Param, (∀ p, p ∈ qs ↔ MayVary s.fl N r.step p) ∧ qs.Pairwise Before ∧
    r.x.map some = qs.map (get r.q)
  phys : e.calculate r.q (gridAt s.nphis nphi r.step) = .ok r.phys

/-- Why an optimization ends with the exception `m`; `q0` is the start. -/
inductive Reason (e : Env K P) (s : Settings) (order : String) (N nphi : Nat) (q0 : Config K) (m : String) : Prop
  | size (h : m = "Size of vary_R0c is incorrect" ∧ s.fl.R0c.length ≠ N ∨
      m = "Size of vary_R0s is incorrect" ∧ s.fl.R0s.length ≠ N ∨
      m = "Size of vary_Z0c is incorrect" ∧ s.fl.Z0c.length ≠ N ∨
      m = "Size of vary_Z0s is incorrect" ∧ s.fl.Z0s.length ≠ N)
  | residuals (hm : m = "There must be at least 1 residual term.") (j : Nat) (hj : j ≤ s.extra)
      (h : e.terms (gridAt s.nphis nphi j) = 0)
  | parameters (hm : m = "There must be at least 1 parameter varied.") (h : ∀ p, ¬ Varied s.fl p)
  | order (hm : m = "Invalid setting for order_r_option") (h : order ∉ ["r1", "r2", "r2.1"])
  | points (hm : m = "insufficient data points, n < p") (j : Nat) (hj : j ≤ s.extra) (qs : List Param)
      (hq : ∀ p, p ∈ qs ↔ MayVary s.fl N j p) (hs : qs.Pairwise Before)
      (h : e.terms (gridAt s.nphis nphi j) < qs.length)
  | physics (j : Nat) (hj : j ≤ s.extra) (q : Config K) (hs : AllSize (N + s.extra) q)
      (hf : ∀ p, ¬ MayVary s.fl N j p → get q p = get q0 p) (ho : order = "r2.1")
      (h : e.calculate q (gridAt s.nphis nphi j) = .error m)

/-- Neighbouring entries of a list are related. -/
def Linked {α : Type} (R : α → α → Prop) (l : List α) : Prop :=
  ∀ i a b, l[i]? = some a → l[i + 1]? = some b → R a b

end Qsc.Spec.OptLoop
