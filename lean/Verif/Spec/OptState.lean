import Verif.Model.OptState

/-!
# What the state vector should contain

A parameter is a scalar or one Fourier amplitude.  `Layout` says which parameters belong to the
vector and in which order, without any reference to the loops of the code.
-/

namespace Qsc.Spec.OptState

open Qsc.OptState

/-- The quantities that can be varied. -/
inductive Param
  | etaBar
  | sigma0
  | B2c
  | B2s
  | R0c (k : Nat)
  | R0s (k : Nat)
  | Z0c (k : Nat)
  | Z0s (k : Nat)
  deriving DecidableEq, Repr

/-- The name written to the file of names. -/
def Param.name : Param → String
  | etaBar => "eta_bar"
  | sigma0 => "sigma0"
  | B2c => "B2c"
  | B2s => "B2s"
  | R0c k => s!"R0c[{k}]"
  | R0s k => s!"R0s[{k}]"
  | Z0c k => s!"Z0c[{k}]"
  | Z0s k => s!"Z0s[{k}]"

/-- Position in the documented order: the kind, then the mode number. -/
def Param.kind : Param → Nat
  | etaBar => 0
  | sigma0 => 1
  | B2c => 2
  | B2s => 3
  | R0c _ => 4
  | R0s _ => 5
  | Z0c _ => 6
  | Z0s _ => 7

/-- The mode number. -/
def Param.mode : Param → Nat
  | R0c k | R0s k | Z0c k | Z0s k => k
  | _ => 0

/-- The order of the parameters. -/
def Before (p r : Param) : Prop := p.kind < r.kind ∨ (p.kind = r.kind ∧ p.mode < r.mode)

/-- The value of a parameter. -/
def get {K : Type} (q : Config K) : Param → Option K
  | .etaBar => some q.etaBar
  | .sigma0 => some q.sigma0
  | .B2c => some q.B2c
  | .B2s => some q.B2s
  | .R0c k => q.R0c[k]?
  | .R0s k => q.R0s[k]?
  | .Z0c k => q.Z0c[k]?
  | .Z0s k => q.Z0s[k]?

/-- The user's choice. -/
def Varied (fl : Flags) : Param → Prop
  | .etaBar => fl.etaBar = true
  | .sigma0 => fl.sigma0 = true
  | .B2c => fl.B2c = true
  | .B2s => fl.B2s = true
  | .R0c k => fl.R0c[k]? = some true
  | .R0s k => fl.R0s[k]? = some true
  | .Z0c k => fl.Z0c[k]? = some true
  | .Z0s k => fl.Z0s[k]? = some true

/-- `ps` lists the varied parameters, each once, in the documented order. -/
structure Layout (fl : Flags) (ps : List Param) : Prop where
  mem : ∀ p, p ∈ ps ↔ Varied fl p
  sorted : ps.Pairwise Before

/-- The condition checked at the start of `optimize` (optimize.cpp 23-26). -/
structure Sized {K : Type} (fl : Flags) (q : Config K) : Prop where
  R0c : fl.R0c.length = q.R0c.length
  R0s : fl.R0s.length = q.R0s.length
  Z0c : fl.Z0c.length = q.Z0c.length
  Z0s : fl.Z0s.length = q.Z0s.length

end Qsc.Spec.OptState
