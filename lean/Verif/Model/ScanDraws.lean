import Verif.Model.Random
import Verif.Model.ScanLoop

/-!
# `scan_random.cpp`: the random generators of a scan

All generators, their start positions and the values one attempt draws.  Simplification: the
bound arrays of the axis Fourier modes have a common length (they are padded when the input is
read, scan_input.cpp 68-84), so they are one list of modes.  `int` overflow of
`mpi_rank * max_attempts_per_proc` is not modelled.
-/

namespace Qsc.ScanDraws
open Qsc.Random

/-- A scanned quantity: distribution name and bounds (scan.hpp lines 63-69). -/
structure Range where
  min : ℝ
  max : ℝ

/-- Bounds of one Fourier mode of the axis (scan.hpp line 68). -/
structure Mode where
  R0c : Range
  R0s : Range
  Z0c : Range
  Z0s : Range

/-- The members of `class Scan` read here (scan.hpp 41-72). -/
structure Settings where
  deterministic : Bool
  etaBarOption : String
  etaBar : Range
  sigma0Option : String
  sigma0 : Range
  B2cOption : String
  B2c : Range
  B2sOption : String
  B2s : Range
  p2Option : String
  p2 : Range
  fourierOption : String
  modes : List Mode
  /-- `max_attempts_per_proc` -/
  attempts : Int
  /-- `q.at_least_order_r2` -/
  r2 : Bool
  /-- Values of `q.B2c`, `q.B2s`, `q.p2` before the scan, kept when not second order. -/
  oldB2c : ℝ
  oldB2s : ℝ
  oldP2 : ℝ

/-- The generators of one Fourier mode (scan_random.cpp lines 42-55). -/
structure ModeGens where
  R0c : Rand
  R0s : Rand
  Z0c : Rand
  Z0s : Rand

/-- All generators of one process (scan_random.cpp lines 32-55). -/
structure Gens where
  etaBar : Rand
  sigma0 : Rand
  B2c : Rand
  B2s : Rand
  p2 : Rand
  modes : List ModeGens

/-- Generators of mode `j` (scan_random.cpp 47-58): for "2 sided log", mode 0 of `R0c` uses
"log"; `R0c`, `R0s`, `Z0c`, `Z0s` start at offsets 4, 5, 6, 7. -/
noncomputable def modeGens (l0 : ℝ) (u : Nat → ℝ) (c : Settings) (rank : Nat) (j : Nat) (m : Mode) :
    Except Err ModeGens := do
  let R0c ← construct l0 c.deterministic
    (if j = 0 ∧ c.fourierOption = "2 sided log" then "log" else c.fourierOption) m.R0c.min m.R0c.max
  let R0s ← construct l0 c.deterministic c.fourierOption m.R0s.min m.R0s.max
  let Z0c ← construct l0 c.deterministic c.fourierOption m.Z0c.min m.Z0c.max
  let Z0s ← construct l0 c.deterministic c.fourierOption m.Z0s.min m.Z0s.max
  return {
    R0c := setToNth u (rank * c.attempts + 4) R0c
    R0s := setToNth u (rank * c.attempts + 5) R0s
    Z0c := setToNth u (rank * c.attempts + 6) Z0c
    Z0s := setToNth u (rank * c.attempts + 7) Z0s }

/-- The loop over modes starting at index `j` (scan_random.cpp 45-64). -/
noncomputable def allModes (l0 : ℝ) (u : Nat → ℝ) (c : Settings) (rank : Nat) :
    Nat → List Mode → Except Err (List ModeGens)
  | _, [] => .ok []
  | j, m :: ms => do
    let g ← modeGens l0 u c rank j m
    let gs ← allModes l0 u c rank (j + 1) ms
    return g :: gs

/-- Construction and positioning of all generators (scan_random.cpp 31-64). -/
noncomputable def start (l0 : ℝ) (u : Nat → ℝ) (c : Settings) (rank : Nat) : Except Err Gens := do
  let etaBar ← construct l0 c.deterministic c.etaBarOption c.etaBar.min c.etaBar.max
  let sigma0 ← construct l0 c.deterministic c.sigma0Option c.sigma0.min c.sigma0.max
  let B2c ← construct l0 c.deterministic c.B2cOption c.B2c.min c.B2c.max
  let B2s ← construct l0 c.deterministic c.B2sOption c.B2s.min c.B2s.max
  let p2 ← construct l0 c.deterministic c.p2Option c.p2.min c.p2.max
  let modes ← allModes l0 u c rank 0 c.modes
  return {
    etaBar := setToNth u (rank * c.attempts + 0) etaBar
    sigma0 := setToNth u (rank * c.attempts + 1) sigma0
    B2c := setToNth u (rank * c.attempts + 2) B2c
    B2s := setToNth u (rank * c.attempts + 3) B2s
    p2 := setToNth u (rank * c.attempts + 4) p2
    modes }

/-- The inputs one attempt hands to the equilibrium code (scan_random.cpp lines 113-127). -/
structure Drawn where
  etaBar : ℝ
  sigma0 : ℝ
  B2c : ℝ
  B2s : ℝ
  p2 : ℝ
  R0c : List ℝ
  R0s : List ℝ
  Z0c : List ℝ
  Z0s : List ℝ

/-- The draws of one attempt (scan_random.cpp 113-127); each generator has its own state, so the
order within an attempt does not matter. -/
noncomputable def draw (u : Nat → ℝ) (c : Settings) (g : Gens) : Drawn × Gens :=
  ({ etaBar := (get u g.etaBar).1
     sigma0 := (get u g.sigma0).1
     B2c := if c.r2 then (get u g.B2c).1 else c.oldB2c
     B2s := if c.r2 then (get u g.B2s).1 else c.oldB2s
     p2 := if c.r2 then (get u g.p2).1 else c.oldP2
     R0c := g.modes.map fun m => (get u m.R0c).1
     R0s := g.modes.map fun m => (get u m.R0s).1
     Z0c := g.modes.map fun m => (get u m.Z0c).1
     Z0s := g.modes.map fun m => (get u m.Z0s).1 },
   { etaBar := (get u g.etaBar).2
     sigma0 := (get u g.sigma0).2
     B2c := if c.r2 then (get u g.B2c).2 else g.B2c
     B2s := if c.r2 then (get u g.B2s).2 else g.B2s
     p2 := if c.r2 then (get u g.p2).2 else g.p2
     modes := g.modes.map fun m =>
       { R0c := (get u m.R0c).2, R0s := (get u m.R0s).2
         Z0c := (get u m.Z0c).2, Z0s := (get u m.Z0s).2 } })

/-- The inputs of the first `n` attempts from a generator state (the loop of scan_random.cpp lines
85-134, random part only). -/
noncomputable def drawsFrom (u : Nat → ℝ) (c : Settings) : Nat → Gens → List Drawn
  | 0, _ => []
  | n + 1, g => (draw u c g).1 :: drawsFrom u c n (draw u c g).2

/-- The inputs of the first `n` attempts of process `rank` (scan_random.cpp lines 32-64 and
113-134). -/
noncomputable def processDraws (l0 : ℝ) (u : Nat → ℝ) (c : Settings) (rank n : Nat) :
    Except Err (List Drawn) := do
  let g ← start l0 u c rank
  return drawsFrom u c n g

end Qsc.ScanDraws
