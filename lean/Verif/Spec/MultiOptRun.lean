import Verif.Spec.OptRun

/-!
# Specification of a multi-stage optimization from the input file to the output files
-/

namespace Qsc.Spec.MultiOptRun
open Qsc.Toml Qsc.OptState Qsc.Spec.OptLoop

/-- The parameters in a section `[qsc]`. -/
def parameters {K : Type} (q : QscIn K) : Config K :=
  ⟨q.eta_bar, q.sigma0, q.B2c, q.B2s, q.R0c, q.R0s, q.Z0c, q.Z0s⟩

/-- Stage `j` starts with the parameters `c` on a grid of `n` points: the first one with those of the section `[qsc]`,
the others with those at the end of the stage before; `ends` are the parameters and grids at the ends. -/
def Begins {K : Type} (q : QscIn K) (ends : List (Config K × Nat)) : Nat → Config K → Nat → Prop
  | 0, c, n => c = parameters q ∧ n = q.nphi.toNat
  | i + 1, c, n => ends[i]? = some (c, n)

/-- The grids that stage `j` may find: that of the input, or that of some step of the stage before. -/
inductive GridBefore (n : Nat) (ss : List Pipeline.Raw) : Nat → Nat → Prop
  | first : GridBefore n ss 0 n
  | next {j m : Nat} {s : Pipeline.Raw} (h : GridBefore n ss j m) (hs : ss[j]? = some s) (k : Nat)
      (hk : k ≤ s.refine.toNat) : GridBefore n ss (j + 1) (gridAt (s.nphis.map Int.toNat) m k)

open Qsc.Spec.Pipeline Qsc.Spec.OptRun in
/-- Why a multi-stage optimization ends with the exception `m`: stage `i`, which starts with the parameters `c` on a grid
of `n` points, is refused.  `os` are the stages, `ss` their settings. -/
def Stops (L : Qsc.Single.Lib ℝ) (q : QscIn ℝ) (os : List (Sections.OptObj ℝ)) (ss : List Pipeline.Raw) (m : String) :
    Prop :=
  ∃ i o s w c n, os[i]? = some o ∧ ss[i]? = some s ∧ IsWeights o.mem w ∧
    (i = 0 → c = parameters q ∧ n = q.nphi.toNat) ∧
    AllSize (q.R0c.length + ((ss.take i).map fun s => s.refine.toNat).sum) c ∧
    (q.order_r_option = "r2.1" → (∀ s' ∈ ss.take i, 2 ≤ s'.maxIter) → GridBefore q.nphi.toNat ss i n) ∧
    Refused L s w (configuration q c n) m

end Qsc.Spec.MultiOptRun
