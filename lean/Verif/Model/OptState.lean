/-!
# `optimize.cpp`: the state vector of the optimizer

The parts of `q` that can be varied, the `vary_*` flags, and the three functions that walk over
them: `init_parameters` (256-317), `set_state_vector` (454-501) and `unpack_state_vector`
(505-549).  Each is transcribed separately, because the code repeats the order of the parameters
in each.  Reading or writing outside an array and a failing `assert` are errors; printing is left
out.
-/

namespace Qsc.OptState

/-- Failures: an exception, an access outside an array, a failing `assert` (optimize.cpp lines
24-27, 316, 498, 547). -/
inductive Err
  | throw (msg : String)
  | undefined (msg : String)
  | assert
  deriving DecidableEq, Repr

/-- The members of `q` that can be varied (qsc.hpp lines 61-63). -/
structure Config (K : Type) where
  etaBar : K
  sigma0 : K
  B2c : K
  B2s : K
  R0c : List K
  R0s : List K
  Z0c : List K
  Z0s : List K
  deriving DecidableEq, Repr

/-- The flags of `Opt` (opt.hpp lines 45-47). -/
structure Flags where
  etaBar : Bool
  sigma0 : Bool
  B2c : Bool
  B2s : Bool
  R0c : List Bool
  R0s : List Bool
  Z0c : List Bool
  Z0s : List Bool
  deriving DecidableEq, Repr

variable {K : Type}

/-! ## `init_parameters` -/

/-- `if (vary_x) { state_vector_names.push_back(name); n_parameters++; }` (266-281). -/
def countScalar (b : Bool) (name : String) (s : Nat × List String) : Nat × List String :=
  if b then (s.1 + 1, s.2 ++ [name]) else s

/-- The loop over one array of flags (282-305), from index `k` on. -/
def countArr (name : String) : List Bool → Nat → Nat × List String → Nat × List String
  | [], _, s => s
  | b :: bs, k, s =>
    countArr name bs (k + 1) (if b then (s.1 + 1, s.2 ++ [name ++ "[" ++ toString k ++ "]"]) else s)

/-- `Opt::init_parameters` with `make_names` (optimize.cpp 256-317): `n_parameters` and
`state_vector_names`. -/
def initParameters (fl : Flags) : Except Err (Nat × List String) :=
  let s := (0, [])
  let s := countScalar fl.etaBar "eta_bar" s
  let s := countScalar fl.sigma0 "sigma0" s
  let s := countScalar fl.B2c "B2c" s
  let s := countScalar fl.B2s "B2s" s
  let s := countArr "R0c" fl.R0c 0 s
  let s := countArr "R0s" fl.R0s 0 s
  let s := countArr "Z0c" fl.Z0c 0 s
  let s := countArr "Z0s" fl.Z0s 0 s
  if s.1 < 1 then .error (.throw "There must be at least 1 parameter varied.") else .ok s

/-! ## `set_state_vector` -/

/-- `state_vector[j] = v; j++` (optimize.cpp lines 458-473). -/
def put (v : K) (s : List K × Nat) : Except Err (List K × Nat) :=
  if s.2 < s.1.length then .ok (s.1.set s.2 v, s.2 + 1) else .error (.undefined "state_vector")

/-- `if (vary_x) { state_vector[j] = q.x; j++; }` (458-473). -/
def setScalar (b : Bool) (v : K) (s : List K × Nat) : Except Err (List K × Nat) :=
  if b then put v s else .ok s

/-- The loop over one array (474-497). -/
def setArr (xs : List K) : List Bool → Nat → List K × Nat → Except Err (List K × Nat)
  | [], _, s => .ok s
  | b :: bs, k, s =>
    if b then
      match xs[k]? with
      | none => .error (.undefined "axis array")
      | some v => (put v s).bind (setArr xs bs (k + 1))
    else setArr xs bs (k + 1) s

/-- `Opt::set_state_vector` (optimize.cpp 454-501) into the array `sv`. -/
def setStateVector (n : Nat) (fl : Flags) (q : Config K) (sv : List K) : Except Err (List K) :=
  (setScalar fl.etaBar q.etaBar (sv, 0)).bind fun s =>
  (setScalar fl.sigma0 q.sigma0 s).bind fun s =>
  (setScalar fl.B2c q.B2c s).bind fun s =>
  (setScalar fl.B2s q.B2s s).bind fun s =>
  (setArr q.R0c fl.R0c 0 s).bind fun s =>
  (setArr q.R0s fl.R0s 0 s).bind fun s =>
  (setArr q.Z0c fl.Z0c 0 s).bind fun s =>
  (setArr q.Z0s fl.Z0s 0 s).bind fun s =>
  if s.2 = n then .ok s.1 else .error .assert

/-! ## `unpack_state_vector` -/

/-- `if (vary_x) { q.x = state_vector[j]; j++; }` (509-524). -/
def unpackScalar (sv : List K) (b : Bool) (old : K) (j : Nat) : Except Err (K × Nat) :=
  if b then
    match sv[j]? with
    | none => .error (.undefined "state_vector")
    | some v => .ok (v, j + 1)
  else .ok (old, j)

/-- The loop over one array (525-548). -/
def unpackArr (sv : List K) : List Bool → Nat → List K × Nat → Except Err (List K × Nat)
  | [], _, s => .ok s
  | b :: bs, k, s =>
    if b then
      match sv[s.2]? with
      | none => .error (.undefined "state_vector")
      | some v =>
        if k < s.1.length then unpackArr sv bs (k + 1) (s.1.set k v, s.2 + 1)
        else .error (.undefined "axis array")
    else unpackArr sv bs (k + 1) s

/-- `Opt::unpack_state_vector` (optimize.cpp 505-549). -/
def unpackStateVector (n : Nat) (fl : Flags) (q : Config K) (sv : List K) :
    Except Err (Config K) :=
  (unpackScalar sv fl.etaBar q.etaBar 0).bind fun eta =>
  (unpackScalar sv fl.sigma0 q.sigma0 eta.2).bind fun sig =>
  (unpackScalar sv fl.B2c q.B2c sig.2).bind fun b2c =>
  (unpackScalar sv fl.B2s q.B2s b2c.2).bind fun b2s =>
  (unpackArr sv fl.R0c 0 (q.R0c, b2s.2)).bind fun r0c =>
  (unpackArr sv fl.R0s 0 (q.R0s, r0c.2)).bind fun r0s =>
  (unpackArr sv fl.Z0c 0 (q.Z0c, r0s.2)).bind fun z0c =>
  (unpackArr sv fl.Z0s 0 (q.Z0s, z0c.2)).bind fun z0s =>
  if z0s.2 = n then
    .ok ⟨eta.1, sig.1, b2c.1, b2s.1, r0c.1, r0s.1, z0c.1, z0s.1⟩
  else .error .assert

end Qsc.OptState
