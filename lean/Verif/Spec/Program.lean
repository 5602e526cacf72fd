import Verif.Model.Program

/-!
# What the program does with a whole input file
-/

namespace Qsc.Spec.Program

/-- The calculations of the manual. -/
def calculations : List String := ["single", "random", "opt", "multiopt", "multiopt_scan"]

/-- The input file asks for this calculation: by name, or for `single` by saying nothing. -/
def Asks (d : Program.Doc) (option : String) : Prop :=
  (∀ s ∈ d.sections, s.1 ≠ "general_option") ∧
  (d.root.lookup "general_option" = some (.str option) ∨ d.root.lookup "general_option" = none ∧ option = "single")

/-- The sections of the input file that belong to a calculation. -/
def Belongs (option : String) (s : String) : Prop :=
  s = "qsc" ∨ option = "random" ∧ s = "scan" ∨ option = "opt" ∧ s = "opt" ∨
  (option = "multiopt" ∨ option = "multiopt_scan") ∧ (s = "multiopt" ∨ ∃ j : Nat, s = "opt" ++ Nat.repr j) ∨
  option = "multiopt_scan" ∧ s = "multiopt_scan"

/-- The calculation that an output file names as its origin. -/
def origin (option : String) : String := if option = "opt" ∨ option = "multiopt" then "single" else option

/-- The file has a variable with this text. -/
def HasText {F : Type} (f : Netcdf.File F) (name text : String) : Prop :=
  ∃ v ∈ f.vars, v.name = name ∧ v.data = some (.chars text.toList)

/-- The name of an output file for an input file `dir/qsc_in.ext`. -/
def OutputName (option : String) (dir ext name : List Char) : Prop :=
  if option = "multiopt" then
    ∃ j : Nat, name = dir ++ "qsc_out.".toList ++ ext ++ ('_' :: (Nat.repr j).toList) ++ ".nc".toList
  else name = dir ++ "qsc_out.".toList ++ ext ++ ".nc".toList

end Qsc.Spec.Program
