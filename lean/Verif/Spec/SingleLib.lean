import Verif.Model.Single

/-!
# Libraries that fail less often
-/

namespace Qsc.Spec.Single
open Qsc.Single

variable {K : Type}

/-- `L'` is `L` except that its LAPACK routines may succeed where those of `L` fail. -/
structure Extends (L L' : Lib K) : Prop where
  ops : L'.ops = L.ops
  lit : L'.lit = L.lit
  toF : L'.toF = L.toF
  single : L'.single = L.single
  gesv : ∀ n m b x, L.gesv n m b = some x → L'.gesv n m b = some x
  geev : ∀ m x, L.geev m = some x → L'.geev m = some x

end Qsc.Spec.Single
