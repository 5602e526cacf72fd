import Verif.Model.ScanLoop

/-!
Specification vocabulary for the random scan: the rejection rule attached to each counter,
stated as a table and not as a control flow.  It mentions only the data types of the model
(`Cfg`, `Cand`, `Counter`) and the two axis sums.
-/

namespace Qsc.Spec.Scan
open Qsc.Scan

variable {F : Type}

/-- The rule of each rejection counter.  The first applies always, the others only when
`keep_all` is off; the last six only at second order. -/
def Rejects (o : Ops F) (cfg : Cfg F) (c : Cand F) : Counter → Bool
  | .r0Crude => o.le (r0At0 o c.R0c) o.zero || o.le (r0AtHalfPeriod o c.R0c) o.zero
  | .r0 => !cfg.keepAll && o.lt c.gridMinR0 cfg.minR0
  | .helicity => !cfg.keepAll &&
      ((cfg.helicityToKeep == 0 && c.helicity != 0) ||
       (cfg.helicityToKeep == 1 && c.helicity != 1 && c.helicity != -1))
  | .curvature => !cfg.keepAll && o.lt (o.inv c.gridMaxCurvature) cfg.minLGradB
  | .iota => !cfg.keepAll && o.lt (o.abs c.iota) cfg.minIota
  | .elongation => !cfg.keepAll && o.lt cfg.maxElongation c.gridMaxElongation
  | .lGradB => !cfg.keepAll && o.lt c.gridMinLGradB cfg.minLGradB
  | .b20Variation => cfg.r2 && !cfg.keepAll && o.lt cfg.maxB20Variation c.b20Variation
  | .d2Volume => cfg.r2 && !cfg.keepAll && o.lt cfg.maxD2Volume c.d2Volume
  | .dMerc => cfg.r2 && !cfg.keepAll && o.lt c.dMerc cfg.minDMerc
  | .lGradGradB => cfg.r2 && !cfg.keepAll && o.lt c.gridMinLGradGradB cfg.minLGradGradB
  | .rSingularity => cfg.r2 && !cfg.keepAll && o.lt c.rSingularity cfg.minRSingularity
  | .beta => cfg.r2 && !cfg.keepAll && o.lt c.beta cfg.minBeta
  | .attempts | .kept | .nSigma | .nR2 => false

/-- Rules applied before the sigma equation is solved. -/
def beforeSigma : List Counter := [.r0Crude, .r0, .helicity, .curvature]
/-- Rules applied between the two solves. -/
def beforeR2 : List Counter := [.iota, .elongation, .lGradB]
/-- Rules applied after the second order solve. -/
def afterR2 : List Counter := [.b20Variation, .d2Volume, .dMerc, .lGradGradB, .rSingularity, .beta]
/-- All rules in the order in which they are charged. -/
def order : List Counter := beforeSigma ++ beforeR2 ++ afterR2

/-- A candidate passes when no rule rejects it. -/
def Passes (o : Ops F) (cfg : Cfg F) (c : Cand F) : Bool :=
  !(Counter.all.any (Rejects o cfg c))

/-- The counter charged to a rejected candidate. -/
def charged (o : Ops F) (cfg : Cfg F) (c : Cand F) : Option Counter :=
  order.find? (Rejects o cfg c)

/-- How many of the candidates satisfy `p`. -/
def howMany (p : Cand F → Bool) (cs : List (Cand F)) : Nat := (cs.filter p).length

end Qsc.Spec.Scan
