# Formal model of landreman/qsc in Lean 4: design

The code is C++ in `/repo/src` at the pinned commit.  It was read, not run.  The Lean project is in
`lean/`; `lake build` there checks every theorem.  `properties.jsonl` states the properties in
English, `MANIFEST.json` names the theorems that prove each, `AXIOMS.md` lists the axioms each of
these theorems depends on, and `seeded/LOG.jsonl` records the mutation tests.

## Layout

* `lean/Verif/Model/*.lean`: the model.  One definition per C++ function, loop body or block, each
  with a comment citing file and lines.  Definitions without a counterpart in the code (conversions
  between failure types, reading a member by name) say so.
* `lean/Verif/Spec/*.lean`: small vocabulary in which the properties are stated.  These files do not
  use the helpers of the model; some import a model file for its data types only.
* `lean/Verif/Lemmas/*.lean`: helper lemmas.
* `lean/Verif/Props/*.lean`: the property theorems.  Beside each stands an `example` that meets the
  hypotheses with concrete, non-trivial data.

## How C++ things are represented

* **Integers.**  `int` is `Int` or `Nat`.  Overflow is not modelled.  A negative `int` that becomes
  a size is an explicit outcome called `outside` (`Model/Pipeline`) and is excluded by a
  hypothesis where a theorem speaks about normal ends.
* **Arrays.**  `std::valarray` is a `List`; an access outside is an explicit outcome (`none` or an
  error called `oob`/`undefined`).  In the physics modules, where every array has `nphi` entries
  (C35), a profile is a function of the grid index.  Memory layout is the subject of C06.
* **Exceptions, failing asserts, undefined behaviour** are constructors of error types; nothing is
  made total silently.  Asserts are taken to be compiled in (they vanish under `NDEBUG`).
* **Uninitialised values** are `none` (order flags, members and locals without a default).
* **Floating point**, two treatments.
  (a) Control logic (filters, quadrants, Newton's acceptance tests, residual blocks) uses an
  arbitrary type with uninterpreted Boolean comparisons, so IEEE numbers with NaN are included.
  (b) Formulas are over an arbitrary field or over `ℝ`; the theorems are about exact arithmetic and
  rounding is outside the model.  Places where exact arithmetic would hide a non-finite result
  (division by zero, root of a negative number in `r_singularity.cpp`) are explicit branches.
* **MPI** is a set of processes joined by FIFO channels per source, destination and tag.  Any process
  may step at any time.  Standard sends may be buffered or may wait for the receiver; which ones are
  buffered is an arbitrary predicate.
* **GSL** is an arbitrary script inside the driver loop of `gsl_multifit_nlinear_driver`: which
  points are evaluated, whether an iteration makes progress, when the convergence test stops.
* **LAPACK** (`dgesv`, `dgeev`) is an arbitrary function; that it solves its equation is a
  hypothesis only of the theorems that need it.
* **netCDF** is a store of dimensions and variables with the documented refusals of the library.
* **toml11** gives sections, each a list of key/value pairs with unique keys.
* **Clock** answers are arbitrary Booleans; random number engines are arbitrary streams.

## Trusted base

* The Lean 4.33.0 kernel and the installed Mathlib.
* The axioms `propext`, `Classical.choice`, `Quot.sound`, and no others; `AXIOMS.md` gives them per
  theorem (generated with `#print axioms`).  No axioms of our own, no `sorry`, no `native_decide`,
  no `bv_decide`.
* The translation from C++ to Lean by hand.  Each definition cites its lines so that it can be
  compared.
* The reading of the specifications.  Most are elementary.  Those that need knowledge of the
  subject are `Spec/NearAxis` (position vector of the near-axis expansion, field, pressure),
  `Spec/Mercier` (flux surface integrals of the Mercier criterion), `Spec/RSing` (singular radius),
  `Spec/GradGradB` (the field as a function of space near the axis).
* The documented behaviour of GSL, LAPACK, netCDF, toml11 and MPI as stated above.

## What is modelled

| model file | code | left out or simplified |
|---|---|---|
| VecMat | vector_matrix.hpp/.cpp: Matrix, Rank3Tensor, Rank4Tensor, products | printing; BLAS variants under `#if`; negative dimensions |
| Random | random.hpp/.cpp | exact reals; engine is a stream; `max*min < 0` cannot underflow |
| Toml, Sections | toml_util.cpp, all four `input` functions | parsing of text; 64 to 32 bit integers |
| Setup | validate.cpp, allocate.cpp, qsc.cpp, driver.cpp, configurations.cpp | literals as exact rationals; timing |
| Helicity | helicity.cpp | nothing but printing |
| DiffMat | differentiation_matrix.cpp, both parities | C37 for odd sizes (`nphi` is always odd, C35), C85 for even sizes; for even sizes the code evaluates `tan(pi/2)`, whose answer is arbitrary in the model (`realPole t`) |
| Axis | init_axis.cpp | written per grid point; products of mode numbers do not overflow |
| R1 | calculate_r1.cpp, first half of grad_B_tensor.cpp | the residual function writes `q->residual` instead of its argument; both are the same array in the only call |
| Newton | newton.cpp | printing |
| R2 | calculate_r2.cpp (orders r2 and r2.1), mercier.cpp | printing |
| GradGradB | grad_B_tensor.cpp 57-1211, both calculations | printing |
| Quartic, RSing | quartic_roots.cpp, r_singularity.cpp | code under `if (false)`; the angle of the minimum |
| OptState, OptResid, OptLoop | optimize.cpp, opt_allocate.cpp, multiopt.cpp | history as one array of records; double precision only |
| ScanLoop, ScanDraws, Collect | scan_random.cpp, scan_collect_results.cpp | sums of timings |
| ScanGrid, ScanParams, MultiScan | multiopt_scan.cpp | `print_status`; arrays as columns; sum of run times |
| Mpi | the part of MPI that is used | collective calls other than the barrier |
| Outfile | outfile.cpp, names of stage files in multiopt.cpp | nothing |
| Netcdf, Output | netcdf_writer.cpp, the four writers, read_netcdf.cpp for files of the C++ version | attributes of the four writers; number conversion |
| FortranFile | read_netcdf.cpp for files of the Fortran version, with the memory behind `nc_string` | number conversion; fill values |
| Program | driver.cpp from the command line to the output files, on top of Single, OptRun, MultiOptRun, ScanRun and MultiScanRun | time; printing; arguments that MPI takes |
| Pipeline | constructors, `Opt::run`, `MultiOpt::run` | output files (see Output) |
| ScanPipeline | `Scan::run` with abstract physics | files (see ScanRun) |
| Single | `Qsc::run`, `Qsc::calculate`, `r2_diagnostics` (qsc.cpp) | writing the file is Output |
| OptRun | `Opt::run` (opt.cpp) from file to file, with the physics of Single and the members of `Opt` that are written | the members of `q` before the last evaluation (all that are written are set again by it) |
| MultiOptRun | `MultiOpt::run` (multiopt.cpp) from file to files, each stage as in OptRun | a stage that makes no iteration (outcome `idle`; the code writes results of the stage before, or none) |
| ScanRun | `Scan::run` (scan.cpp) on all processes from file to file: the loop with the physics of Single, messages, `write_netcdf` at checkpoints and at the end | the calculations are done before the messages (they do not depend on each other) and the file is written after them |
| MachineInt | sizes and indices in `int`, `big` and `size_t`: vector_matrix, allocate.cpp, multiopt_scan.cpp, scan_random.cpp, scan_collect_results.cpp | values of the elements; counters; mode numbers |
| MultiScanPipeline | `MultiOptScan::run`, `init`, `eval_scan_index` | files, `print_status` |
| MultiScanRun | `MultiOptScan::run` (multiopt_scan.cpp) on all processes from file to file: every grid point with the stages of Pipeline and the physics of Single, messages, `print_status` as far as it sets members, `write_netcdf` at checkpoints and at the end | the grid points are evaluated before the messages; a stage that makes no iteration (outcome `idle`) |

C97 and C98 (stellarator symmetry) assume that the linear solver is exact: its answer is the only solution of
the system (`Qsc.Spec.Symmetry.Exact`).  C100 (change of units) assumes at second order, if the unit of length changes,
that the answer of the linear solver is proportional to the right-hand side (`Qsc.Spec.Scaling.Homogeneous`).  Every
other theorem about whole runs leaves the answers of LAPACK open.  C100 leaves out the results of the search for
singularities if the unit of length changes: r_singularity.cpp compares lengths with absolute tolerances and
starts from the constant 1e30, so these results need not scale.  C101 (reversal of the field) has no such assumption;
C104 (axis moved) and C105 (orders) have none either; C106 (optimization with the opposite field) assumes that the
least-squares library evaluates and accepts the same points in both optimizations, which `residual_signs` justifies as
far as the library uses only sums of products of residuals; C107 (random scan) has no assumption on libraries, and C108
to C110 (multi-stage optimizations, alone and in a scan, and the whole program) have the one of C106.  C102 (sign of `eta_bar`) assumes at second order that
the linear solver gives the same answer if the matrix and the right-hand side both change sign (`Qsc.Spec.HalfTurn.SignFree`).  C103 (mirror image) assumes that signs of rows and
columns go over to the answer of the linear solver (`Qsc.Spec.Mirror.Signs`), and leaves out the results of the search
for singularities, whose roots need not be found in the same order.  A solver in exact arithmetic meets all these
assumptions (`Qsc.ExactSolve.assumptions_met`).  C111 (contents of memory) quantifies over the memory from which members
are set; values that the model keeps apart as `junk` (for example `q.d_phi` in a random scan without any axis) are the same
in both runs.

Not modelled: rounding; wall-clock time; `int` overflow other than in sizes and indices (MachineInt, C99); the text of printed messages;
`src/tests`; the internals of the libraries; the bytes of files.

## Defects and disagreements found

Each is proved of the model, with a witness where the expectation is false.

* `Matrix::operator=` copies the data but not the shape (C07).  The uses in the code are safe:
  `init_axis.cpp:19` assigns to a matrix that `allocate` has sized, `multiopt.cpp:84` copies a whole
  object, whose generated assignment uses this operator, and the following `allocate` sizes it.
* The terms `half * sG * spsi * curvature * I2` of `fX0_inhomogeneous` and `fXc_inhomogeneous` (`calculate_r2.cpp:85` and
  `100`) do not change their signs in the mirror image as the other terms do; a factor `sigma` seems to be missing.
  They cancel, because only the difference of the two enters the linear system, so the results do not depend on them
  (C103).
* `calculate_helicity` counts a component of the normal vector that is exactly zero as positive, also in the mirror
  image.  So the mirror image has the opposite helicity only if the other component does not change its sign next to
  such a grid point (C103).
* A candidate with NaN diagnostics passes every filter of a random scan and is saved (C13).
* `max_keep_per_proc = 0` writes outside the local arrays (C14).
* In deterministic scans without a limit of attempts all processes repeat the same values (C15);
  `p2` and `R0c` share the offset 4.
* Comments in `random.cpp` about exchanged bounds do not match the code (C09).
* Processes that see different numbers of checkpoints deadlock in `collect_results` (C17).
* The master of a multi-stage scan sends the stop message to rank `j`, not to the process that
  reported; with synchronous sends this can deadlock (C21).
* A scanned mode number beyond the arrays of the input file, or a stage that does not exist, writes
  outside an array (C24): `axis_nmax_plus_1` counts refinements.  A negative stage for an initial
  condition with two or more stages throws.  `weight_curvature`, `weight_R0`, `min_R0`, `sigma0`,
  `R0s` and `Z0c` cannot be scanned.
* After a failed line search the residual array, and `sigma` and `iota` of the configuration, belong
  to the rejected trial, not to the returned state (C26, C51).  A trial whose norm is equal or NaN
  is accepted.  The sign of the tolerance does not matter.
* An optimization allocates with order flags that were never set (C52).
* If the first iteration of the least-squares library makes no progress there is no callback and
  the configuration keeps the rejected trial; the next stage starts from it (C53).
* The option `"scan"` named in a message of the driver is refused (C36); `scan.hpp` declares the option
  `"2 sided log except Z0s1"`, which `Random` refuses (C08).
* `r_singularity` misses singularities in three cases: `K4c = 0`, a tie of mirrored angles, and a
  vanishing quadratic coefficient (C47).  The second cannot occur for a computed configuration
  (`first_coefficients`).
* `opt_write_netcdf.cpp` fills `iter_curvature_term` from `iter_elongation_term` (C63).
* The writers use the length of `R0c` for all four axis arrays; shorter ones are read beyond their end
  (C50, C62).  The reader for C++ files does not restore the axis arrays or the order option, and its
  function for strings stops at a blank that need not exist (C61).
* The scan writer does not write `min_beta_to_keep` nor the fractions rejected due to helicity and
  beta; `verbose` of a scan cannot be set from its file.
* The scalar `p2` in the output of a scan at second order is that of the last attempt on process 0, not
  that of the input file (C89).  If no attempt on process 0 passes the first test of the radius, `d_phi`
  is written without ever having been set (its value is arbitrary in the model).
* `nopts` has no default (C71).  An empty axis in the input of an optimization writes `vary_R0c[0]` of
  an empty array (C70).  A negative `fourier_refine` is accepted and then writes outside (C74).
  Sections of stages beyond `nopts`, and misspelt sections, are ignored silently (C71).
* With default flags a second stage after a refinement stops with "Size of vary_R0c is incorrect"
  (C75).  `MultiOpt` sets `make_names = false`, but a section can set it again.
* Stage 1 of `qsc_in.a` and a single run of `qsc_in.a_1` write the same file.
* A scan draws from the distributions of `B2c`, `B2s`, `p2` only at second order but constructs them
  always, so their bounds can stop a first-order scan (C76).  Padding of bounds with zeros can make
  logarithmic bounds impossible.
* The output of a multi-stage scan does not record settings scanned at an earlier stage; its initial
  condition is recorded as zeros unless a callback happened (C79).  `max_seconds` of this scan is
  never enforced.  `parameters_single` keeps the values of the previous evaluation where it is not
  written.
* The output files of `opt` and `multiopt` say `general_option = "single"`: `Opt::write_netcdf` appends to the
  file of `Qsc::write_netcdf`, and its own line for `general_option` is commented out (C96).
* Reading a file of the Fortran version reads past the end of `nc_string[50]`: the file fills it with
  blanks and there is no zero byte (C95).  It works if a zero byte follows somewhere in memory.
* `Scan::random` computes `mpi_rank * max_attempts_per_proc + 7` in `int` even if the scan is not
  deterministic and the number is not needed: 216 processes with ten million attempts each overflow
  (C99).  The arrays of both scans overflow `int` before memory is short (C99).
* The comment formula for the geodesic term in `mercier.cpp` holds only for `sG * spsi = 1`; the
  formula of the code is right (C45).  `L_grad_grad_B` divides `B0` without absolute value (C67).
* Spectral differentiation obeys the product rule only for resolved products.  Where a physical
  identity needs it, it is a hypothesis at the grid point (C48, C58, C59, C64 to C68), and C48 gives
  the error term exactly.

## Mutation tests

`seeded/LOG.jsonl` has one line per attempt.  A copy of the project is edited as a realistic bug would,
rebuilt, and the failing theorems are noted.  Edits that no theorem noticed led to stronger theorems
(`tightened`) or are explained there (edits that do not change what the English claim says).

## Properties

| id | title | status | files | notes |
|---|---|---|---|---|
| C01 | Axis helicity is always an integer (the divisibility throw is unreachable) | proved | Props/Helicity |  |
| C02 | Axis helicity equals the winding number of the normal vector | proved | Props/Helicity | Winding number defined by axis crossings of the sampled normal (Spec/Helicity). |
| C03 | Output file name is derived correctly and injectively | proved | Props/Outfile |  |
| C04 | Input keys: absent keys keep defaults, present keys override, any unknown key is an error | proved | Props/Toml | Section [qsc]. |
| C05 | Fourier arrays are zero padded to a common length without losing data | proved | Props/Toml |  |
| C06 | Array index layout is collision free and in bounds | proved | Props/VecMat | Layout, independence of distinct elements, aliasing of out-of-range rows. |
| C07 | Matrix assignment copies the data but not the shape | proved | Props/VecMat | The expectation (assignment copies a matrix) is false; exact condition and witness proved. |
| C08 | Random distributions: constructor accepts exactly the documented ranges | proved | Props/Random | Exact real arithmetic. |
| C09 | Random draws stay inside the requested range and swapping the bounds keeps the range | proved | Props/Random | Exact real arithmetic; swap_* record a disagreement with the comment in random.cpp. |
| C10 | Deterministic random sequence: seeking is the same as drawing | proved | Props/Random | Exact real arithmetic. |
| C100 | A run in other units | proved | Props/Scaling | At second order with a different unit of length the linear solver has to be homogeneous (and for ends_in_units the eigenvalue routine must not fail). r_singularity_robust, beta and r_hat_singularity_robust are covered only if the unit of length is the same: the search compares with absolute tolerances and the constant 1e30. X1s is not in the file. |
| C101 | Reversal of the field | proved | Props/Reversal | Exact real arithmetic; no assumption about the linear solver or the eigenvalue routine, except that equal inputs give equal answers. |
| C102 | The sign of eta_bar | proved | Props/HalfTurn | Exact real arithmetic; at second order the linear solver has to give the same answer if the matrix and the right-hand side both change sign. |
| C103 | Mirror images | proved | Props/Mirror | Exact real arithmetic; the linear solver has to follow signs of rows and columns, as an exact one does (Qsc.ExactSolve.assumptions_met); the normal vector must not cross between quadrants at a grid point where its Z component is exactly zero; the results of the search for singularities are left out. |
| C104 | The axis moved, or given by other coefficients | proved | Props/Shift | Exact real arithmetic; no assumption on the linear solver. |
| C105 | Runs of different orders | proved | Props/Nested | Exact real arithmetic; no assumption on the linear solver. |
| C106 | An optimization with the opposite field | proved | Props/OptReversal | Exact real arithmetic. The least-squares library is a script of the points it evaluates and accepts, the same in both optimizations; residual_signs says that the library sees the same residuals up to fixed signs. |
| C107 | A random scan with the opposite field | proved | Props/ScanReversal | Exact real arithmetic; no assumption on the linear solver. Messages between processes are those of C90. |
| C108 | A scan of multi-stage optimizations with the opposite field | proved | Props/GridReversal | Exact real arithmetic. The least-squares library is a script of the points it evaluates and accepts, the same in both scans, as in C106. Stages without an iteration are outside the model (Err.idle). |
| C109 | A multi-stage optimization with the opposite field | proved | Props/StagesReversal | Exact real arithmetic. The least-squares library is a script of the points it evaluates and accepts, the same in both optimizations, as in C106. |
| C11 | Random scan bookkeeping: every attempt is counted once | proved | Props/ScanLoop |  |
| C110 | The whole program with the opposite field | proved | Props/ProgramReversal | Exact real arithmetic. All calculations use the same numerical libraries; the least-squares library takes the same steps for both files, as in C106. Stages without an iteration are outside the model (Err.idle). |
| C111 | What the memory contained before does not matter | proved | Props/OptMemory, Props/ScanMemory | Scans and the whole program in exact real arithmetic. Not part of this memory, and kept the same: the flags of the order that Opt::allocate reads before they are set (C52; the model uses the flags that validate set), q.d_phi of a random scan of which no attempt came to init_axis (World.junk; the code writes it unset), the parameters of a candidate before the first attempt (World.c0), and columns of the local arrays of a random scan in which nothing was kept (World.junkColumn). |
| C12 | Random scan keeps exactly the configurations that pass every filter | proved | Props/ScanLoop |  |
| C13 | What a filtered scan does with NaN: comparisons fail, so a NaN result is saved | proved | Props/ScanLoop | The expectation is false: witness proved. |
| C14 | Random scan stays within its limits | proved | Props/ScanLoop | Clock answers are arbitrary Booleans supplied by the environment. |
| C15 | Deterministic scans do not depend on how attempts are split over processes | proved | Props/ScanDraws | Exact real arithmetic; int overflow of rank*attempts not modelled. |
| C16 | Gathering results loses, duplicates and mixes nothing | proved | Props/Collect |  |
| C17 | Gathering results terminates under every schedule, and mismatched checkpoint decisions deadlock | proved | Props/Collect | The expectation is false when ranks reach different numbers of checkpoints: proved. |
| C18 | A tensor-product scan index names exactly one combination of parameter values | proved | Props/ScanGrid | Machine integer overflow of the product not modelled. |
| C19 | Scan grids hit both end points and are evenly spaced | proved | Props/ScanGrid | Exact real arithmetic. |
| C20 | Master/worker scan: every index is evaluated exactly once by exactly one worker | proved | Props/MultiScan | All schedules, any buffering, any 1 <= workers <= n. Assumes evaluations return and that axis arrays have the sizes of Spec.MultiScan.Sized. |
| C21 | Master/worker scan: every execution terminates and the stored results do not depend on the schedule | proved | Props/MultiScan | Deadlock freedom if the sends of process 0 or the sends of the workers are buffered; with purely synchronous sends a deadlock is exhibited. The floating point sum of run times (total_cpu_seconds) is schedule dependent and left out. |
| C22 | Multiopt scan counters are consistent and the mismatch throw is unreachable | proved | Props/MultiScan | Counters, no exception or out-of-bounds access in any reachable state, checkpoints. |
| C23 | Saved multiopt-scan columns are the passing indices in increasing order, unmixed | proved | Props/MultiScan | 57 scalars, 8 Fourier blocks for any number of modes, against a separately written table of meanings. |
| C24 | Scanned parameters set exactly the named quantity | proved | Props/ScanParams | Includes the witness that a mode number beyond the input arrays, or a stage that does not exist, writes out of bounds. |
| C25 | Newton solver: converged means converged, and the residual never grows | proved | Props/Newton | Norms in any linear order for the monotonicity; control flow with uninterpreted comparisons otherwise. |
| C26 | Newton solver: whether the residual array belongs to the returned state | proved | Props/Newton | The documented post-condition fails on a line search failure: proved, with a concrete run. |
| C27 | Newton solver: bounded work | proved | Props/Newton |  |
| C28 | Optimizer state vector round trip | proved | Props/OptState |  |
| C29 | Optimizer residual vector has exactly the declared length and blocks | proved | Props/OptResid |  |
| C30 | Objective is half the sum of squared residuals, nonnegative, and one-sided penalties are one-sided | proved | Props/OptResid | Exact arithmetic. |
| C31 | Optimizer iteration history stays in bounds | proved | Props/OptLoop | The least-squares library is an arbitrary script inside the driver loop of GSL; fourier_refine and max_iter nonnegative. |
| C32 | Fourier refinement adds modes one at a time and never disturbs existing ones | proved | Props/OptLoop |  |
| C33 | Multi-stage optimization passes each stage's result on | proved | Props/OptLoop, Props/Outfile |  |
| C34 | Order option is decided exactly | proved | Props/Setup |  |
| C35 | Grid resolution is always odd and stable | proved | Props/Setup | Non-negative resolutions. |
| C36 | Driver runs exactly the calculation that was asked for | proved | Props/Setup |  |
| C37 | Spectral differentiation matrix: antisymmetric, circulant, kills constants | proved | Props/DiffMat | Exact real arithmetic; the model of the C++ loops builds the matrix entry by entry and any out-of-range access would give none. |
| C38 | Spectral differentiation is exact on resolved Fourier modes | proved | Props/DiffMat | Exact real arithmetic; derivative in the sense of HasDerivAt.  unresolved_mode shows that the bound on the wave number is needed. |
| C39 | Axis derivatives are derivatives, and the Frenet frame is orthonormal | proved | Props/Axis | Exact real arithmetic; int overflow in the products of mode numbers is not modelled. |
| C40 | Boozer angle along the axis | proved | Props/Axis | Exact real arithmetic. |
| C41 | Sigma-equation Jacobian is the exact derivative of the residual | proved | Props/R1 | Exact real arithmetic. |
| C42 | First-order shape invariants | proved | Props/R1 | Exact real arithmetic; elongation is also shown to be the ratio of the largest to the smallest distance from the axis. |
| C43 | The O(r^2) linear system is the right one | proved | Props/R2, Props/R2Field | Equivalence between the assembled system and the two second-order equations at every grid point, for any previous content of the matrix. Exact reals. |
| C44 | Second-order diagnostics: B20 anomaly averages to zero, variation is nonnegative, extrema are attained | proved | Props/Mercier | Exact reals, positive weights. |
| C45 | Mercier terms | proved | Props/Mercier | Also identifies each term with the flux-surface integrals of the Mercier criterion at leading order (Poisson integral for the poloidal average), and d2_volume_d_psi2 with the expansion of the volume derivative. Exact reals. |
| C46 | Quartic root finder builds the companion matrix of its polynomial | proved | Props/Quartic | The eigenvalue routine is an environment; its exactness is a hypothesis only where roots are claimed. |
| C47 | r_singularity is the smallest singular radius | proved | Props/RSing | Exact real arithmetic; the places where the code divides by zero or takes the root of a negative number are explicit. |
| C48 | grad B tensor on axis is consistent with Maxwell's equations | proved | Props/R1 | Exact real arithmetic. A spectral matrix obeys the product rule only for resolved products, so trace and curl are given exactly with the product rule error, and vanish when it does. |
| C49 | Named configurations are well formed | proved | Props/Setup | Numbers as exact rationals; the calculation that follows init is not part of this claim. |
| C50 | NetCDF writer pairs each variable with its own data | proved | Lemmas/Netcdf, Props/Netcdf | The netCDF library is an environment given by its documented rules; the object is unchanged between put and close; rounding of numbers when stored and the conversion of unsigned long long to double are an uninterpreted function. |
| C51 | Configuration after the sigma solve belongs to the last residual evaluation | proved | Props/Newton |  |
| C52 | Order flags: set before use in single runs and scans, read unset by an optimization | proved | Props/Setup | The expectation is false for optimizations: proved. |
| C53 | The optimizer ends at the configuration it recorded last, unless the library makes no progress | proved | Props/OptLoop | The expectation is false without progress: witness proved. |
| C54 | Newton solver follows its line search rule exactly | proved | Props/Newton |  |
| C55 | Optimizer evaluation counts | proved | Props/OptEvals |  |
| C56 | Axis length, means and extrema | proved | Props/Axis | Exact real arithmetic. |
| C57 | What the sigma solve leaves behind | proved | Props/R1 |  |
| C58 | The computed O(r^2) solution is a magnetic field in force balance | proved | Props/R2Field | Hypotheses: exact linear solve, sigma equation at the grid point, product rule for the first-order profiles (a spectral matrix obeys it only up to truncation error). |
| C59 | The O(r^3) coefficients cancel the remaining average of the tangential component | proved | Props/R2Field | Same hypotheses as C58 without the linear solve. |
| C60 | Jacobian coefficients of r_singularity are the expansion of the true Jacobian | proved | Props/RSingJac | Exact real arithmetic. |
| C61 | Reading a written configuration restores it | proved | Props/Output | The netCDF library is an environment given by its documented rules; storing and loading a number is exact; descriptions and units are left out. read_netcdf only for files of the C++ version. |
| C62 | The variables of an output file hold what they are named after | proved | Props/Output, Props/OutputFiles | As C61; n_scan is taken to fit an int. |
| C63 | The file of an optimization is the file of its configuration with the history added | partial | Props/OutputFiles | False of the code for one array: the variable iter_curvature_term is filled from iter_elongation_term. opt_false is a witness, opt_written_partial proves the statement for all other arrays. |
| C64 | The grad B tensor is the first derivative of the field on the axis | proved | Props/GradGradB | Exact real arithmetic; the product rule for X1c Y1s at the grid point is a hypothesis (a spectral matrix obeys it up to truncation error). |
| C65 | The grad grad B tensor is the second derivative of the field on the axis | proved | Props/GradGradB | Exact real arithmetic; smoothness along the axis is given by functions with the values and derivatives of the grid profiles at one point. |
| C66 | The two calculations of the grad grad B tensor agree | proved | Props/GradGradB | Exact real arithmetic. |
| C67 | The length scale of the second derivative | proved | Props/GradGradB | Exact real arithmetic; B0 > 0 is needed because the code divides B0 without absolute value. |
| C68 | The grad grad B tensor obeys Maxwell's equations | proved | Props/GradGradBMaxwell | Exact real arithmetic; exact linear solve and smooth profiles as hypotheses. |
| C69 | A scan file is accepted exactly if it is correct, and every member gets its value | proved | Props/Sections | A file is its sections after parsing; keys are unique (toml11); conversion of 64 bit to 32 bit integers is not modelled. |
| C70 | An optimization file is accepted exactly if it is correct, and every member gets its value | proved | Props/Sections | As C69. |
| C71 | Each stage of a multi-stage optimization is read from its own section | proved | Props/Sections | As C69. |
| C72 | A file for a scan of multi-stage optimizations is accepted exactly if it is correct | proved | Props/Sections | As C69; asserts are taken to be compiled in. |
| C73 | After reading a file no member that has a key is uninitialised | proved | Props/Pipeline | Members with a key in the file; nopts has no default (C71). |
| C74 | An optimization from an accepted file never leaves its arrays | proved | Props/Pipeline | The calculation of a configuration and the GSL library are environments with arbitrary answers; sizes that are negative and become huge unsigned numbers are the outcome outside, excluded by Natural. |
| C75 | A multi-stage optimization from an accepted file never leaves its arrays | proved | Props/Pipeline | As C74. |
| C76 | A random scan starts exactly if the distributions of its file are possible, and saves exactly what the file asks for | proved | Props/ScanPipeline | Exact real arithmetic; the clock and the random streams are environments; the calculation of a configuration is an arbitrary function of the drawn inputs. A negative max_keep_per_proc, which becomes a huge size, is the outcome outside. |
| C77 | The arrays in the output of a random scan obey the bounds and thresholds of the input file | proved | Props/ScanPipeline | As C76; the communication is that of C16/C17. |
| C78 | A scan of multi-stage optimizations evaluates exactly the grid described by its input file | proved | Props/MultiScanPipeline | Exact real arithmetic; logarithmic grids need positive bounds (hypothesis Positive); overflow of n_scan_all not modelled. |
| C79 | The output of a scan of multi-stage optimizations contains the settings of its grid points | proved | Props/MultiScanPipeline | The calculation of a configuration and the GSL library are environments with arbitrary answers; in scan_output all optimizations are assumed to end normally (an exception in a worker ends the program). |
| C80 | A single run ends with an output file exactly for the input files that describe a configuration | proved | Props/Single | Exact real arithmetic. The parser of toml11 and the netCDF library are environments that work (a parsed file, no I/O errors). An nfp that is zero or negative is not covered by refused (division by zero in floating point). |
| C81 | The output of a single run repeats the settings and contains the axis of the input file | proved | Props/SingleAxis | Exact real arithmetic; curvature and what follows from it need R0 != 0 at the grid points, torsion and helicity also curvature != 0. |
| C82 | The output of a single run contains the first-order solution of the axis of the input file | proved | Props/SingleFirst | Exact real arithmetic; the Newton result is not written to the file and is taken from the run. |
| C83 | The result of a single run does not depend on what the memory contained before | proved | Props/Single | For every field with arbitrary comparisons, so also for orders of evaluation that real arithmetic would hide. |
| C84 | The output of a single run contains a second- and third-order solution for the axis of the input file | proved | Props/SingleSecond | Exact real arithmetic. The agreement of both forms of the field needs an exact linear solver and, at the grid point, the product rule and the sigma equation (structure Exact); the tensor needs the product rule for X1c Y1s. The radius of singularity is that of the roots the code accepts: a zero of the Jacobian where the derivative is below the tolerance. |
| C85 | The differentiation matrix for an even number of points | proved | Props/DiffMatEven | Exact real arithmetic; tan(pi/2), which the code evaluates for even sizes, answers an arbitrary number. The code never calls the function with an even size for a calculation (C35); tests in the repository do. |
| C86 | The output of an optimization contains the final configuration as a single run would write it | proved | Props/OptRun | Exact real arithmetic. That the file has the parameters of the last record is conditional on GSL reporting progress in the first iteration of each step (otherwise C53: a rejected trial stays). nfp of zero or below is outside the model. |
| C87 | The history in the output of an optimization is reproduced by single runs | proved | Props/OptRun | Exact real arithmetic. iter_curvature_term holds the elongation term (C63). |
| C88 | When an optimization from an input file ends with an output file | proved | Props/OptRun | Exact real arithmetic. |
| C89 | The output of a random scan contains exactly the attempts whose single runs meet the requirements | proved | Props/ScanRun | Exact real arithmetic. The counts by reason are exact if every attempt can be calculated, which holds if LAPACK does not fail (calculable); a failure of LAPACK ends the scan. max_keep_per_proc at least 1 (C14) and at least one Fourier mode. The contents of the files are those of C22; timings are not written. |
| C90 | When a random scan from an input file ends with an output file | proved | Props/ScanRun | Exact real arithmetic. MPI as in C17. Negative nphi and nfp of zero or below are reported as outside the model (std::valarray of negative size, division by zero). |
| C91 | The output files of a multi-stage optimization contain the final configuration and the history of each stage | proved | Props/MultiOptRun | Exact real arithmetic. As C86 and C87 for each stage. fourier_refine below 2^31. A stage that makes no iteration is reported as outside the model (error idle); the code then writes results of the stage before. |
| C92 | When a multi-stage optimization from an input file ends with its output files | proved | Props/MultiOptRun | Exact real arithmetic. As C88. |
| C93 | The output of a scan of multi-stage optimizations contains exactly the grid points to be kept, each as it was optimized | proved | Props/MultiScanRun | Exact real arithmetic. Sizes in the file are not negative; logarithmic grids have positive bounds. A stage that makes no iteration is reported as outside the model (error idle). The results of grid points are made before the messages, because they do not depend on them. |
| C94 | When a scan of multi-stage optimizations from an input file ends with an output file | proved | Props/MultiScanRun | Exact real arithmetic. MPI as in C20 and C21; without any buffering the scan can deadlock (C21). |
| C95 | Reading a file of the Fortran version | proved | Props/FortranFile | Number conversion by netCDF is not modelled (integers stay integers), nor fill values. The division of line 180 is modelled after the last get. |
| C96 | The program from an input file to its output files | proved | Props/Program | Built on the models of the five calculations. Time, printing, command line parsing of MPI and the return value after an exception are not modelled: a run that throws does not end normally. |
| C97 | Stellarator symmetry of the axis and the first order | proved | Props/Symmetry | Exact real arithmetic; the linear solver is exact (its answer is the only solution). No division by zero: R, the curvature, eta_bar and B0 are not zero. |
| C98 | Stellarator symmetry of the second and third order | proved | Props/Symmetry | As C97; iota_N is not zero. r_hat_singularity_robust is not covered, because it depends on the eigenvalue routine. |
| C99 | For which sizes the integer arithmetic of the arrays is right | proved | Props/MachineInt | int has 32 bits, big and size_t have 64. The other parts of the model use unbounded integers; these theorems say where that is right for sizes and indices. |
