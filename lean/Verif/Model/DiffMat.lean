import Verif.Model.VecMat
import Mathlib.Algebra.Field.Defs

/-!
# `differentiation_matrix.cpp`

The numbers are an arbitrary field with the three functions that are used.  Reading or writing
outside an array is the outcome `none`.
-/

namespace Qsc.DiffMat

open Qsc.VecMat

/-- `pi`, `sin`, `tan` (library functions used in differentiation_matrix.cpp lines 17, 31, 44, 57).
-/
structure Trig (K : Type) where
  pi : K
  sin : K → K
  tan : K → K

variable {K : Type}

/-- `a[i] = v` (differentiation_matrix.cpp lines 31-50). -/
def store (a : List K) (i : Nat) (v : K) : Option (List K) :=
  if i < a.length then some (a.set i v) else none

/-- `for (j = 0; j < n; j++) a[ix(j)] = f(j, a[ix(j)])`, where `f` may fail to read another
array. -/
def fillLoop (n : Nat) (ix : Nat → Nat) (f : Nat → K → Option K) (a : List K) : Option (List K) :=
  forLoop n (fun j acc => acc.bind fun a => (a[ix j]?).bind fun x => (f j x).bind fun v =>
    store a (ix j) v) (some a)

variable [Field K]

/-- Lines 29-31 and 42-44: `topc`. -/
def topc (t : Trig K) (N n2 : Nat) : Option (List K) :=
  let h : K := 2 * t.pi / (N : K)
  fillLoop n2 (fun j => j) (fun j _ => some (if N % 2 = 0
    then (1 / 2) / t.tan (((j + 1 : Nat) : K) * h / 2)
    else (1 / 2) / t.sin (((j + 1 : Nat) : K) * h / 2))) (List.replicate n2 0)

/-- Lines 24, 32-37 and 45-50, 53-56: `col1`, with the factor `c = 2 pi / (xmax - xmin)`. -/
def col1 (t : Trig K) (N : Nat) (c : K) : Option (List K) :=
  let n1 := (N - 1) / 2
  let n2 := N / 2
  (store (List.replicate N 0) 0 0).bind fun a =>
  (topc t N n2).bind fun top =>
  (fillLoop n2 (fun j => j + 1) (fun j _ => top[j]?) a).bind fun a =>
  (fillLoop n1 (fun j => n2 + 1 + j) (fun j _ => (top[n1 - 1 - j]?).map fun v =>
    if N % 2 = 0 then -v else v) a).bind fun a =>
  (fillLoop (N / 2) (fun i => 2 * i + 1) (fun _ x => some (-x)) a).map fun a =>
  a.map fun x => c * x

/-- Lines 59-66: the Toeplitz matrix. -/
def toeplitz (N : Nat) (c : List K) : Option (Matrix K) :=
  forLoop N (fun j acc => acc.bind fun m =>
    (forLoop (N - j) (fun i acc => acc.bind fun m => (c[i]?).bind fun v =>
      m.set j (j + i) (-v)) (some m)).bind fun m =>
    forLoop j (fun k acc => acc.bind fun m => (c[j - k]?).bind fun v => m.set j k v) (some m))
    (some (Matrix.mk' 0 N N))

/-- `qsc::differentiation_matrix` (differentiation_matrix.cpp 15-69).  `floor((N - 1.0) / 2)` and
`ceil((N - 1.0) / 2)` are `(N - 1) / 2` and `N / 2` in integers (for `N >= 1`); the loop
`for (k = j; k < N; k++)` is written with `i = k - j`. -/
def differentiationMatrix (t : Trig K) (N : Nat) (xmin xmax : K) : Option (Matrix K) :=
  (col1 t N (2 * t.pi / (xmax - xmin))).bind (toeplitz N)

end Qsc.DiffMat
