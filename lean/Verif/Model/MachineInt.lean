import Mathlib.Data.Int.Notation
import Mathlib.Order.Basic

/-!
# Machine integers: sizes and indices of the arrays

The other parts of the model compute sizes and indices with unbounded integers.  This file models
the same computations as the code does them: `int` has 32 bits, a result that does not fit is
undefined behaviour, `big` and `size_t` have 64 bits without sign and wrap around.  (The widths are
those of the platforms the code is built for: 32-bit `int`, 64-bit `unsigned long long` and
`size_t`.)
-/

namespace Qsc.MachineInt

/-- Outcome of a computation: a value, undefined behaviour, `std::bad_alloc` (or
`std::bad_array_new_length`) thrown by an allocation, or one of the program's own exceptions. -/
inductive Out (α : Type) where
  | ok (a : α)
  | undefined
  | badAlloc
  | error (msg : String)
  deriving Repr, DecidableEq

/-- Sequencing: the first outcome that is not a value is the outcome of the whole. -/
def Out.bind {α β : Type} : Out α → (α → Out β) → Out β
  | .ok a, f => f a
  | .undefined, _ => .undefined
  | .badAlloc, _ => .badAlloc
  | .error m, _ => .error m

/-- `INT_MAX` of a 32-bit `int` (vector_matrix.hpp 19: `typedef int index_type`). -/
def intMax : Int := 2147483647

/-- `INT_MIN` of a 32-bit `int`. -/
def intMin : Int := -2147483648

/-- The result of an `int` operation: overflow is undefined behaviour. -/
def chk (x : Int) : Out Int := if intMin ≤ x ∧ x ≤ intMax then .ok x else .undefined

/-- `a * b` in `int`. -/
def mulI (a b : Int) : Out Int := chk (a * b)

/-- `a + b` in `int`. -/
def addI (a b : Int) : Out Int := chk (a + b)

/-- Conversion of an `int` to `size_t`, done for every size and index handed to `std::valarray`. -/
def toSize (x : Int) : Nat := (x % 18446744073709551616).toNat

/-- Conversion of a `big` (qsc.hpp 12: `unsigned long long int`) to `int`: the value modulo 2^32
in the range of `int`. -/
def toInt (u : Nat) : Int :=
  if u % 4294967296 < 2147483648 then (u % 4294967296 : Nat) else (u % 4294967296 : Nat) - 4294967296

/-- Allocation of a `std::valarray` with `size` elements; `mem` says which sizes the machine can
provide. -/
def alloc (mem : Nat → Bool) (size : Nat) : Out Nat := if mem size then .ok size else .badAlloc

/-- A `Matrix` (vector_matrix.hpp 70-95): its dimensions and the number of elements that its
`valarray` really has.  The values of the elements are left out. -/
structure Mat where
  nrows : Int
  ncols : Int
  size : Nat
  deriving Repr, DecidableEq

/-- `Matrix::Matrix(nrows, ncols)` and `Matrix::resize` (vector_matrix.cpp 49-62): the product of
the dimensions in `int`, then the allocation.  (The product is computed twice in the code, with the
same operands.) -/
def Mat.resize (mem : Nat → Bool) (rows cols : Int) : Out Mat :=
  (mulI rows cols).bind fun len => (alloc mem (toSize len)).bind fun s => .ok ⟨rows, cols, s⟩

/-- Element of a `valarray` with `size` elements at an `int` index: undefined outside. -/
def element (size : Nat) (i : Int) : Out Nat :=
  if toSize i < size then .ok (toSize i) else .undefined

/-- `Matrix::operator()(m, n)` (vector_matrix.hpp 84-90): `m + nrows_ * n` in `int`. -/
def Mat.at (a : Mat) (m n : Int) : Out Nat :=
  (mulI a.nrows n).bind fun x => (addI m x).bind fun i => element a.size i

/-- A `Rank3Tensor` (vector_matrix.hpp 100-130). -/
structure Ten3 where
  d1 : Int
  d2 : Int
  d3 : Int
  size : Nat
  deriving Repr, DecidableEq

/-- `Rank3Tensor::resize` (vector_matrix.cpp 208-214) and the constructor (199-206):
`d1 * d2 * d3` in `int`, from the left. -/
def Ten3.resize (mem : Nat → Bool) (d1 d2 d3 : Int) : Out Ten3 :=
  (mulI d1 d2).bind fun x => (mulI x d3).bind fun len =>
    (alloc mem (toSize len)).bind fun s => .ok ⟨d1, d2, d3, s⟩

/-- `Rank3Tensor::operator()` (vector_matrix.hpp 122-128): `j1 + d1_ * (j2 + d2_ * j3)` in `int`. -/
def Ten3.at (a : Ten3) (j1 j2 j3 : Int) : Out Nat :=
  (mulI a.d2 j3).bind fun x => (addI j2 x).bind fun y => (mulI a.d1 y).bind fun z =>
    (addI j1 z).bind fun i => element a.size i

/-- A `Rank4Tensor` (vector_matrix.hpp 135-156). -/
structure Ten4 where
  d1 : Int
  d2 : Int
  d3 : Int
  d4 : Int
  size : Nat
  deriving Repr, DecidableEq

/-- `Rank4Tensor::resize` (vector_matrix.cpp 247-254) and the constructor (236-245). -/
def Ten4.resize (mem : Nat → Bool) (d1 d2 d3 d4 : Int) : Out Ten4 :=
  (mulI d1 d2).bind fun x => (mulI x d3).bind fun y => (mulI y d4).bind fun len =>
    (alloc mem (toSize len)).bind fun s => .ok ⟨d1, d2, d3, d4, s⟩

/-- `Rank4Tensor::operator()` (vector_matrix.hpp 148-154):
`j1 + d1_ * (j2 + d2_ * (j3 + d3_ * j4))` in `int`. -/
def Ten4.at (a : Ten4) (j1 j2 j3 j4 : Int) : Out Nat :=
  (mulI a.d3 j4).bind fun x => (addI j3 x).bind fun y => (mulI a.d2 y).bind fun z =>
    (addI j2 z).bind fun w => (mulI a.d1 w).bind fun v => (addI j1 v).bind fun i =>
      element a.size i

/-! ## A single configuration -/

/-- `if (nphi % 2 == 0) nphi++` (allocate.cpp 13). -/
def makeOdd (nphi : Int) : Out Int := if Int.tmod nphi 2 = 0 then addI nphi 1 else .ok nphi

/-- A `Vector` or `valarray` resized to an `int` size. -/
def vec (mem : Nat → Bool) (n : Int) : Out Nat := alloc mem (toSize n)

/-- The arrays that `Qsc::allocate` makes (allocate.cpp 9-180), one of each shape and in the order
of the code: the vectors of `nphi` elements (15-56), the `nphi` × `nphi` matrices (58-60),
`quadrant` (69), `grad_B_tensor` (80), and for `at_least_order_r2` the 2`nphi` × 2`nphi` matrix
`r2_matrix` (109), the vectors of 2`nphi` elements (110-111) and `grad_grad_B_tensor` (173).  The
many arrays of equal shape stand for one. -/
def allocate (mem : Nat → Bool) (nphi : Int) (r2 : Bool) : Out Int :=
  (makeOdd nphi).bind fun n =>
  (vec mem n).bind fun _ =>
  (Mat.resize mem n n).bind fun _ =>
  ((addI n 1).bind (vec mem)).bind fun _ =>
  (Ten3.resize mem n 3 3).bind fun _ =>
  if r2 then
    ((mulI 2 n).bind fun a => (mulI 2 n).bind fun b => Mat.resize mem a b).bind fun _ =>
    ((mulI 2 n).bind (vec mem)).bind fun _ =>
    (Ten4.resize mem n 3 3 3).bind fun _ => .ok n
  else .ok n

/-! ## The scan of multi-stage optimizations -/

/-- The loop over the dimensions in `MultiOptScan::init` (multiopt_scan.cpp 70-73): each number of
values must be at least 2, and `n_scan_all` (an `int`, multiopt_scan.hpp 49) is multiplied by it. -/
def nScanAll : List Int → Int → Out Int
  | [], acc => .ok acc
  | n :: ns, acc =>
    if n < 2 then .error "params_n values must all be >= 2"
    else (mulI acc n).bind fun acc' => nScanAll ns acc'

/-- `n_fourier_parameters = axis_nmax_plus_1 * 8` and `n_parameters = n_parameters_base +
n_fourier_parameters` with `n_parameters_base = 58` (multiopt_scan.cpp 91-93, multiopt_scan.hpp
69-72). -/
def nParameters (axisNmaxPlus1 : Int) : Out Int :=
  (mulI axisNmaxPlus1 8).bind fun f => addI 58 f

/-- A loop `for (j = start; j < start + count; j++)` over an `int`, as the list of the values of
`j`; the increment after the last pass is done as well. -/
def intLoop : Nat → Int → Out (List Int)
  | 0, _ => .ok []
  | k + 1, j => (addI j 1).bind fun j' => (intLoop k j').bind fun l => .ok (j :: l)

/-- The places that `proc0_recv` writes for the values `j = 0, …, count - 1` of one point
(multiopt_scan.cpp 222-225), given the place of value `j`. -/
def column (place : Int → Out Nat) : Nat → Int → Out (List Nat)
  | 0, _ => .ok []
  | k + 1, j => (place j).bind fun i => (column place k (j + 1)).bind fun l => .ok (i :: l)

/-- All points whose number was given out, each with the places written for it. -/
def storeAll (store : Int → Out (List Nat × List Nat)) :
    List Int → Out (List (Int × List Nat × List Nat))
  | [] => .ok []
  | j :: js => (store j).bind fun p => (storeAll store js).bind fun l => .ok ((j, p) :: l)

/-- Process 0 of `MultiOptScan` from `init` (multiopt_scan.cpp 49-105) to the end of `scan`
(106-212), as far as sizes and indices are concerned: the number of points, the number of values per
point, the two checks of the number of processes (113-116), the arrays `parameters` and
`int_parameters` (125-126), the numbers of the points that are given out (132-137) and the places
where `proc0_recv` stores the results (214-225).  Every point given out comes back once (proved in
`Verif/Props/MultiOptScan.lean`); the order in which they come back does not matter for the places
and is taken to be the order in which they were given out. -/
def multiScan (mem : Nat → Bool) (nProcs : Int) (paramsN : List Int) (axisNmaxPlus1 : Int) :
    Out (List (Int × List Nat × List Nat)) :=
  (nScanAll paramsN 1).bind fun nAll =>
  (nParameters axisNmaxPlus1).bind fun nPar =>
  if nProcs < 2 then
    .error "For MultiOptScan, the number of MPI processes must be at least 2."
  else if nProcs - 1 > nAll then
    .error "For MultiOptScan, the number of MPI processes cannot exceed n_scan_all + 1."
  else
    (Mat.resize mem nPar nAll).bind fun a =>
    ((mulI 4 nAll).bind (vec mem)).bind fun isize =>
    (intLoop (nProcs - 1).toNat 0).bind fun first =>
    (intLoop (nAll - (nProcs - 1)).toNat (nProcs - 1)).bind fun rest =>
    storeAll (fun jScan =>
      (column (fun j => a.at j jScan) nPar.toNat 0).bind fun p =>
      (column (fun j => (mulI 4 jScan).bind fun x => (addI j x).bind fun i => element isize i)
        4 0).bind fun q => .ok (p, q)) (first ++ rest)

/-! ## The random scan -/

/-- The sizes and starting positions of process `rank` at the beginning of `Scan::random`
(scan_random.cpp 13-64): the three arrays for the results of this process, then
`mpi_rank * max_attempts_per_proc + k` for the largest `k`, which is 7.  (The smaller `k` are
computed before; since `max_attempts_per_proc` and the rank are the same, the sum overflows upwards
for some `k` exactly if it does for 7, and it cannot overflow downwards.)  The product and the sums
are computed whether or not the scan is deterministic; `set_to_nth` uses them in both cases. -/
def randomStart (mem : Nat → Bool) (rank maxAttempts maxKeep axisNmaxPlus1 : Int) :
    Out (Mat × Mat × Nat) :=
  (mulI axisNmaxPlus1 4).bind fun nF =>
  (Mat.resize mem 20 maxKeep).bind fun a =>
  (Mat.resize mem nF maxKeep).bind fun b =>
  ((mulI 1 maxKeep).bind (vec mem)).bind fun c =>
  (mulI rank maxAttempts).bind fun r => (addI r 7).bind fun _ => .ok (a, b, c)

/-- The arrays for the results of all processes in `Scan::collect_results` (scan_collect_results.cpp
99-101): `n_scan` is a `big` that is converted to `int` for the two matrices; the product for
`int_parameters` is computed in 64 bits. -/
def collectArrays (mem : Nat → Bool) (nScan : Nat) (nFourier : Int) : Out (Mat × Mat × Nat) :=
  (Mat.resize mem 20 (toInt nScan)).bind fun a =>
  (Mat.resize mem nFourier (toInt nScan)).bind fun b =>
  (alloc mem (1 * nScan % 18446744073709551616)).bind fun c => .ok (a, b, c)

end Qsc.MachineInt
