import Verif.Model.Loop
import Mathlib.Analysis.SpecialFunctions.Log.Basic
import Mathlib.Analysis.SpecialFunctions.Sqrt
import Mathlib.Algebra.Order.Floor.Ring

/-!
# `random.hpp`, `random.cpp`

Exact real arithmetic.  The seeded `std::default_random_engine` with
`uniform_real_distribution(0,1)` is an arbitrary stream `u : Nat → ℝ` (the environment);
the number of values already taken from it is the field `pos`.
-/

namespace Qsc.Random

/-- `enum Distrib_type` (random.hpp 13-16). -/
inductive Distrib
  | linear
  | log
  | twoSidedLog
  deriving DecidableEq

/-- The three messages thrown by the constructor (random.cpp 44-57). -/
inductive Err
  | sign
  | zero
  | twoSided
  | unknown
  deriving DecidableEq

/-- `class Random` (random.hpp 18-33), without the generator itself. -/
structure Rand where
  min : ℝ
  max : ℝ
  logmin : ℝ
  logmax : ℝ
  deterministic : Bool
  distrib : Distrib
  last : ℝ
  sign : ℝ
  pos : Nat

/-- `log` of `<cmath>` on a nonnegative argument; the value at 0 (minus infinity in C++) is a
parameter `l0`, the theorems hold for every `l0`. -/
noncomputable def clog (l0 x : ℝ) : ℝ := if x = 0 then l0 else Real.log x

/-- `const qscfloat gamma = (1.0 + sqrt(5.0)) / 2.0` (random.hpp 25). -/
noncomputable def gamma : ℝ := (1 + Real.sqrt 5) / 2

/-- `std::fmod(x, 1.0)`: remainder with the sign of `x`. -/
noncomputable def fmod1 (x : ℝ) : ℝ := if 0 ≤ x then x - ⌊x⌋ else x - ⌈x⌉

open Classical in
/-- `Random::Random` (random.cpp 18-59). -/
noncomputable def construct (l0 : ℝ) (deterministic : Bool) (distrib : String) (min max : ℝ) :
    Except Err Rand :=
  let r (d : Distrib) : Rand :=
    { min, max, deterministic, distrib := d
      logmin := clog l0 |min|
      logmax := clog l0 |max|
      last := 0
      sign := if max < 0 then -1 else 1
      pos := 0 }
  if distrib = "linear" then .ok (r .linear)
  else if distrib = "log" then
    if max * min < 0 then .error .sign
    else if max ≠ min ∧ (max = 0 ∨ min = 0) then .error .zero
    else .ok (r .log)
  else if distrib = "2 sided log" then
    if min = 0 ∧ max = 0 then .ok (r .twoSidedLog)
    else if min ≤ 0 ∨ max ≤ 0 then .error .twoSided
    else .ok (r .twoSidedLog)
  else .error .unknown

open Classical in
/-- The `switch` of `Random::get` (random.cpp 75-94). -/
noncomputable def mapValue (r : Rand) (rand01 : ℝ) : ℝ :=
  match r.distrib with
  | .linear => r.min + (r.max - r.min) * rand01
  | .log => r.sign * Real.exp (r.logmin + (r.logmax - r.logmin) * rand01)
  | .twoSidedLog =>
    let temp := |(rand01 - 1 / 2) * 2|
    let val := Real.exp (r.logmin + (r.logmax - r.logmin) * temp)
    if rand01 > 1 / 2 then -val else val

open Classical in
/-- `Random::get` (random.cpp 61-97): value and new state.  Note the early return for
`max == min`, which does not advance the sequence. -/
noncomputable def get (u : Nat → ℝ) (r : Rand) : ℝ × Rand :=
  if r.max = r.min then (r.max, r)
  else if r.deterministic then
    let last := fmod1 (r.last + gamma)
    (mapValue r last, { r with last })
  else (mapValue r (u r.pos), { r with pos := r.pos + 1 })

/-- `Random::set_to_nth` (random.cpp 103-110); a nonpositive `n` gives an empty loop. -/
noncomputable def setToNth (u : Nat → ℝ) (n : Int) (r : Rand) : Rand :=
  forLoop n.toNat (fun _ r => (get u r).2) { r with last := 0 }

end Qsc.Random
