import Verif.Spec.OptReversal
import Verif.Spec.Program
import Verif.Spec.ScanReversal
import Verif.Spec.Sections

/-!
# Specification of the program with the opposite field
-/

namespace Qsc.Spec.ProgramReversal
open Qsc.Spec.Single Qsc.Spec.Reversal Qsc.Spec.OptReversal Qsc.Spec.ScanReversal

/-- Two input files that differ in the section `[qsc]` only, and there in the direction of the field. -/
structure OppositeFiles (single : Bool) (d d' : Program.Doc) (q q' : Toml.QscIn ℝ) : Prop where
  wf : Spec.Sections.WellFormed d.sections
  wf' : Spec.Sections.WellFormed d'.sections
  root : d'.root = d.root
  others : ∀ s, s ≠ "qsc" → d'.sections.lookup s = d.sections.lookup s
  input : Input single d.sections q
  input' : Input single d'.sections q'
  opposite : Opposite q q'

/-- In every section but `[qsc]`, `fourier_refine` is an `int`, and an array `nphi` has fewer than `2 ^ 63` elements. -/
def Moderate (file : Qsc.Sections.File ℝ) : Prop :=
  ∀ x ∈ file, x.1 ≠ "qsc" → (∀ i, ("fourier_refine", .int i) ∈ x.2 → i < 2 ^ 31) ∧
    ∀ l, ("nphi", .arr l) ∈ x.2 → l.length < 2 ^ 63

/-- What the output files of the calculation with name `g` have in common. -/
def Corresponds (g order : String) (f f' : Netcdf.File ℝ) : Prop :=
  if g = "single" then SameOpposite order f f'
  else if g = "opt" ∨ g = "multiopt" then SameHistory f f' ∧ SameOpposite "r2.1" f f'
  else SameExcept signs f f'

end Qsc.Spec.ProgramReversal
