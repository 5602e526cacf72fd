import Mathlib.Logic.Function.Basic

/-!
# Message passing processes

The part of MPI used by the scans: `MPI_Send`, `MPI_Recv` from a given source and tag,
`MPI_Recv` with `MPI_ANY_SOURCE`/`MPI_ANY_TAG`, and `MPI_Barrier`.  Messages with the same
source, destination and tag are delivered in order.  `MPI_Send` is the standard mode send: the
implementation may buffer the message or may block until the receiver takes it.  Which sends may
be buffered is an arbitrary predicate `canBuf`; a direct hand-over is always possible.
-/

namespace Qsc.Mpi

/-- A process: what it does next, up to a result (MPI calls as in scan_collect_results.cpp lines
41-122 and multiopt_scan.cpp lines 132-192; the library itself is not part of the repository). -/
inductive Proc (ι M R : Type)
  | done (r : R)
  | send (dst : ι) (tag : Nat) (m : M) (k : Proc ι M R)
  | recv (src : ι) (tag : Nat) (k : M → Proc ι M R)
  | recvAny (k : ι → M → Proc ι M R)
  | barrier (k : Proc ι M R)

/-- All processes and the messages in flight, by source, destination and tag (the state of the MPI
library, not part of the repository). -/
structure St (ι M R : Type) where
  procs : ι → Proc ι M R
  chan : ι × ι × Nat → List M

variable {ι M R : Type} [DecidableEq ι]

open Function in
/-- One step of the system, with a weight: 1 for a local step, 2 for a direct hand-over (which
does the work of a buffered send and a receive). -/
inductive Step (canBuf : ι → ι → M → Prop) : Nat → St ι M R → St ι M R → Prop
  | sendBuf {s : St ι M R} {i dst tag m k} : s.procs i = .send dst tag m k → canBuf i dst m →
      Step canBuf 1 s
        ⟨update s.procs i k, update s.chan (i, dst, tag) (s.chan (i, dst, tag) ++ [m])⟩
  | recv {s : St ι M R} {i src tag k m rest} : s.procs i = .recv src tag k →
      s.chan (src, i, tag) = m :: rest →
      Step canBuf 1 s ⟨update s.procs i (k m), update s.chan (src, i, tag) rest⟩
  | recvAny {s : St ι M R} {i src tag k m rest} : s.procs i = .recvAny k →
      s.chan (src, i, tag) = m :: rest →
      Step canBuf 1 s ⟨update s.procs i (k src m), update s.chan (src, i, tag) rest⟩
  | sync {s : St ι M R} {i j tag m k k'} : s.procs i = .send j tag m k →
      s.procs j = .recv i tag k' → s.chan (i, j, tag) = [] →
      Step canBuf 2 s ⟨update (update s.procs i k) j (k' m), s.chan⟩
  | syncAny {s : St ι M R} {i j tag m k k'} : s.procs i = .send j tag m k →
      s.procs j = .recvAny k' → s.chan (i, j, tag) = [] →
      Step canBuf 2 s ⟨update (update s.procs i k) j (k' i m), s.chan⟩
  | barrier {s : St ι M R} (k : ι → Proc ι M R) : (∀ i, s.procs i = .barrier (k i)) →
      Step canBuf 1 s ⟨k, s.chan⟩

/-- Executions, with total weight (semantics of the MPI standard, not part of the repository). -/
inductive Steps (canBuf : ι → ι → M → Prop) : Nat → St ι M R → St ι M R → Prop
  | refl {s} : Steps canBuf 0 s s
  | head {w n s t u} : Step canBuf w s t → Steps canBuf n t u → Steps canBuf (w + n) s u

/-- Start state: no messages in flight (semantics of the MPI standard, not part of the repository).
-/
def St.start (procs : ι → Proc ι M R) : St ι M R := ⟨procs, fun _ => []⟩

/-- Every process has returned (semantics of the MPI standard, not part of the repository). -/
def St.Finished (s : St ι M R) : Prop := ∀ i, ∃ r, s.procs i = .done r

end Qsc.Mpi
