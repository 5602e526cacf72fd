import Verif.Model.Loop

/-!
# `vector_matrix.hpp`, `vector_matrix.cpp`

`std::valarray` storage is a `List`; reading or writing outside it is undefined behaviour
and is the outcome `none`.  Dimensions are `Nat` (simplification: C++ uses `int`; a
negative dimension would convert to a huge allocation request).  `len_` is omitted: it is
written but never read.
-/

namespace Qsc.VecMat

/-- `class Matrix : public std::valarray<qscfloat>` (vector_matrix.hpp 21-38). -/
structure Matrix (F : Type) where
  nrows : Nat
  ncols : Nat
  data : List F

/-- Flat index `m + nrows_ * n` (vector_matrix.hpp 84-90). -/
def idx2 (nrows m n : Nat) : Nat := m + nrows * n

/-- Flat index `j1 + d1_ * (j2 + d2_ * j3)` (vector_matrix.hpp 122-128). -/
def idx3 (d1 d2 j1 j2 j3 : Nat) : Nat := j1 + d1 * (j2 + d2 * j3)

/-- Flat index `j1 + d1_ * (j2 + d2_ * (j3 + d3_ * j4))` (vector_matrix.hpp 148-154). -/
def idx4 (d1 d2 d3 j1 j2 j3 j4 : Nat) : Nat := j1 + d1 * (j2 + d2 * (j3 + d3 * j4))

variable {F : Type}

/-- `Matrix::Matrix()` (vector_matrix.cpp 41-47); valarray elements are value initialised. -/
def Matrix.default (zero : F) : Matrix F := ⟨1, 1, [zero]⟩

/-- `Matrix::Matrix(nrows, ncols)` (vector_matrix.cpp 49-55). -/
def Matrix.mk' (zero : F) (nrows ncols : Nat) : Matrix F :=
  ⟨nrows, ncols, List.replicate (nrows * ncols) zero⟩

/-- `Matrix::resize` (vector_matrix.cpp 57-62). `valarray::resize` discards old contents. -/
def Matrix.resize (_m : Matrix F) (nrows ncols : Nat) (v : F) : Matrix F :=
  ⟨nrows, ncols, List.replicate (nrows * ncols) v⟩

/-- Reading `operator()(m, n)` (vector_matrix.hpp 84-90). -/
def Matrix.get (a : Matrix F) (m n : Nat) : Option F := a.data[idx2 a.nrows m n]?

/-- Writing through `operator()(m, n)` (vector_matrix.hpp 84-86); `none` is an out of
bounds write. -/
def Matrix.set (a : Matrix F) (m n : Nat) (v : F) : Option (Matrix F) :=
  if idx2 a.nrows m n < a.data.length then
    some { a with data := a.data.set (idx2 a.nrows m n) v }
  else none

/-- `Matrix::operator=(const qscfloat)` (vector_matrix.hpp 92-96). -/
def Matrix.fill (a : Matrix F) (v : F) : Matrix F :=
  { a with data := a.data.map fun _ => v }

/-- `Matrix::operator=(const Matrix&)` (vector_matrix.hpp 98-102): only the base class
`valarray` is assigned (which also resizes the storage), `nrows_` and `ncols_` of the
target stay. -/
def Matrix.assign (a b : Matrix F) : Matrix F := { a with data := b.data }

/-- `class Rank3Tensor` (vector_matrix.hpp 106-128). -/
structure Rank3 (F : Type) where
  d1 : Nat
  d2 : Nat
  d3 : Nat
  data : List F

/-- `Rank3Tensor(d1,d2,d3)` and `resize` (vector_matrix.cpp 199-214). -/
def Rank3.resize (d1 d2 d3 : Nat) (v : F) : Rank3 F :=
  ⟨d1, d2, d3, List.replicate (d1 * d2 * d3) v⟩

/-- Reading a rank 3 tensor element (vector_matrix.hpp 122-128). -/
def Rank3.get (t : Rank3 F) (j1 j2 j3 : Nat) : Option F := t.data[idx3 t.d1 t.d2 j1 j2 j3]?

/-- Writing a rank 3 tensor element (vector_matrix.hpp 122-124). -/
def Rank3.set (t : Rank3 F) (j1 j2 j3 : Nat) (v : F) : Option (Rank3 F) :=
  if idx3 t.d1 t.d2 j1 j2 j3 < t.data.length then
    some { t with data := t.data.set (idx3 t.d1 t.d2 j1 j2 j3) v }
  else none

/-- `Rank3Tensor::set_row` (vector_matrix.cpp 216-221); `none` is a failed assertion or an
out of bounds access. -/
def Rank3.setRow (t : Rank3 F) (v : List F) (j2 j3 : Nat) : Option (Rank3 F) :=
  if v.length = t.d1 then
    forLoop t.d1 (fun j acc => acc.bind fun u => (v[j]?).bind fun x => u.set j j2 j3 x) (some t)
  else none

/-- `class Rank4Tensor` (vector_matrix.hpp 132-154). -/
structure Rank4 (F : Type) where
  d1 : Nat
  d2 : Nat
  d3 : Nat
  d4 : Nat
  data : List F

/-- `Rank4Tensor(d1,d2,d3,d4)` and `resize` (vector_matrix.cpp 236-253). -/
def Rank4.resize (d1 d2 d3 d4 : Nat) (v : F) : Rank4 F :=
  ⟨d1, d2, d3, d4, List.replicate (d1 * d2 * d3 * d4) v⟩

/-- Reading a rank 4 tensor element (vector_matrix.hpp 148-154). -/
def Rank4.get (t : Rank4 F) (j1 j2 j3 j4 : Nat) : Option F :=
  t.data[idx4 t.d1 t.d2 t.d3 j1 j2 j3 j4]?

/-- Writing a rank 4 tensor element (vector_matrix.hpp 148-150). -/
def Rank4.set (t : Rank4 F) (j1 j2 j3 j4 : Nat) (v : F) : Option (Rank4 F) :=
  if idx4 t.d1 t.d2 t.d3 j1 j2 j3 j4 < t.data.length then
    some { t with data := t.data.set (idx4 t.d1 t.d2 t.d3 j1 j2 j3 j4) v }
  else none

/-- `Rank4Tensor::set_row` (vector_matrix.cpp 255-260). -/
def Rank4.setRow (t : Rank4 F) (v : List F) (j2 j3 j4 : Nat) : Option (Rank4 F) :=
  if v.length = t.d1 then
    forLoop t.d1 (fun j acc => acc.bind fun u => (v[j]?).bind fun x => u.set j j2 j3 j4 x)
      (some t)
  else none

section Arith
variable [Zero F] [Add F] [Mul F]

/-- `dot_product` (vector_matrix.cpp 91-98); `none` is the failed size assertion. -/
def dotProduct (u v : List F) : Option F :=
  if u.length = v.length then
    forLoop u.length
      (fun j acc => acc.bind fun s => (u[j]?).bind fun x => (v[j]?).map fun y => s + x * y)
      (some 0)
  else none

/-- Reference BLAS `?gemv` with TRANS='N', ALPHA=1, BETA=0, unit strides: row `i` of the
result accumulates `A[i + lda*j] * x[j]` over columns `j` on the flat array `a` with
leading dimension `lda` (environment assumption: this is what BLAS computes, in exact
arithmetic). -/
def gemvRow (a : List F) (lda n : Nat) (x : List F) (i : Nat) : Option F :=
  forLoop n
    (fun j acc => acc.bind fun s => (a[i + lda * j]?).bind fun p => (x[j]?).map fun y => s + p * y)
    (some 0)

/-- `matrix_vector_product` (vector_matrix.cpp 134-155) with a result vector of length
`nres`; the loop over rows is `gemv`'s. -/
def matrixVectorProduct (m : Matrix F) (v : List F) (nres : Nat) : Option (List F) :=
  if m.ncols = v.length ∧ m.nrows = nres then
    (List.range m.nrows).mapM fun i => gemvRow m.data m.nrows m.ncols v i
  else none

end Arith

end Qsc.VecMat
