{"id": "C01", "title": "Axis helicity is always an integer (the divisibility throw is unreachable)", "statement": "For any sampled axis normal vector (including NaN samples) and any signs, the helicity calculation never throws: the closed quadrant walk always has a total that is a multiple of 4, and the reported helicity is exactly that total divided by 4.", "quantifier": "every nphi >= 1, every pair of sample arrays of the normal's R and Z components (arbitrary float values incl. NaN), every spsi, sG", "why_tests_cant": "The sample arrays range over an unbounded set of lengths and values; a unit test sees a handful of axes and can never show the throw is unreachable.", "anchors": ["src/helicity.cpp: Qsc::calculate_helicity"]}
{"id": "C02", "title": "Axis helicity equals the winding number of the normal vector", "statement": "If the normal's (R,Z) projection turns by less than a quarter turn between neighbouring grid points and by w full turns around the closed axis, the reported helicity is w times spsi times sG, whatever the grid size; it does not depend on which grid point is first, and traversing the axis backwards negates it.", "quantifier": "every nphi, every sequence of real angles with increments below pi/2 that closes up to 2 pi w, every positive radii, every spsi,sG; every cyclic shift and reversal of quadrant sequences", "why_tests_cant": "Winding number is a topological statement over all closed curves; a test checks particular configurations only.", "anchors": ["src/helicity.cpp: Qsc::calculate_helicity"]}
{"id": "C03", "title": "Output file name is derived correctly and injectively", "statement": "qsc::outfile accepts exactly the paths whose final component starts with 'qsc_in.' and then returns the same directory with the final component 'qsc_out.<ext>.nc'; every other path throws; two different accepted input paths never map to the same output path.", "quantifier": "all strings", "why_tests_cant": "All strings cannot be enumerated; the existing throw checks are even commented out in the test suite.", "anchors": ["src/outfile.cpp: qsc::outfile"]}
{"id": "C04", "title": "Input keys: absent keys keep defaults, present keys override, any unknown key is an error", "statement": "Reading a section leaves every variable whose key is absent at its default, sets every variable whose key is present to the value in the file, and the final check throws if and only if the section holds a key no reader asked for, so a misspelt key can never be silently ignored.", "quantifier": "all finite tables (key/value maps) and all lists of requested variables with defaults, in any order", "why_tests_cant": "Tables are unbounded; tests read a few sample files.", "anchors": ["src/toml_util.cpp: toml_read, toml_unused", "src/toml_util.hpp"]}
{"id": "C05", "title": "Fourier arrays are zero padded to a common length without losing data", "statement": "After the input is read all axis Fourier arrays have the same length, the maximum of the given lengths; each keeps its given prefix unchanged and is zero beyond it; padding is idempotent and the padding assertion never fires.", "quantifier": "all lists of arrays of all lengths and contents", "why_tests_cant": "Array lengths are unbounded.", "anchors": ["src/toml_util.cpp: pad_vector", "src/qsc_input.cpp: Qsc::input", "src/scan_input.cpp: Scan::input"]}
{"id": "C06", "title": "Array index layout is collision free and in bounds", "statement": "For matrices and rank-3/rank-4 tensors, distinct in-range index tuples address distinct storage cells inside the allocation and every cell is addressed; so writing one element never changes another, and set_row writes exactly one row.", "quantifier": "all dimensions and all in-range index tuples", "why_tests_cant": "Dimensions are unbounded; out-of-bounds writes are undefined behaviour and may not show in a test.", "anchors": ["src/vector_matrix.hpp", "src/vector_matrix.cpp: Matrix::operator(), Rank3Tensor::operator(), Rank4Tensor::operator(), Matrix::set_row, resize"]}
{"id": "C07", "title": "Matrix assignment copies the data but not the shape", "statement": "After A = B every in-range element read through A equals the element of B. As written this holds exactly when A's row count already equals B's (or no element distinguishes the layouts): the assignment copies the data but not the shape.", "quantifier": "all pairs of matrices of all shapes", "why_tests_cant": "The defect shows only for shape-changing assignments, which no test performs.", "anchors": ["src/vector_matrix.cpp: Matrix::operator=", "src/vector_matrix.hpp"]}
{"id": "C08", "title": "Random distributions: constructor accepts exactly the documented ranges", "statement": "A random variable with a given distribution name and (min,max) is accepted exactly when: 'linear' always; 'log' iff min and max have the same strict sign or are both zero; '2 sided log' iff both positive or both zero; any other name throws. In particular swapping min and max never changes acceptance.", "quantifier": "all strings, all real min and max", "why_tests_cant": "Ranges over all strings and all reals.", "anchors": ["src/random.cpp: Random::Random"]}
{"id": "C09", "title": "Random draws stay inside the requested range and swapping the bounds keeps the range", "statement": "Every value drawn from an accepted distribution lies in the closed interval between min and max (linear, log), or has absolute value in it ('2 sided log'); if min = max the value is exactly that constant. Exact real arithmetic.", "quantifier": "all accepted (distribution,min,max), all generator outputs in [0,1), all draw counts", "why_tests_cant": "The property is over every generator state; sampling cannot exclude a rare out-of-range draw.", "anchors": ["src/random.cpp: Random::get"]}
{"id": "C10", "title": "Deterministic random sequence: seeking is the same as drawing", "statement": "In deterministic mode, for a non-degenerate range, seeking to position n and drawing gives the same value and the same later sequence as n draws from a fresh generator followed by that draw, from any earlier history; seeking to m and then drawing k times leaves the generator where seeking to m+k does; the n-th value is the distribution applied to the fractional part of (n+1) gamma.", "quantifier": "all positions n, all prior histories of draws and seeks, all accepted distributions", "why_tests_cant": "Histories and positions are unbounded.", "anchors": ["src/random.cpp: Random::set_to_nth, Random::get"]}
{"id": "C11", "title": "Random scan bookkeeping: every attempt is counted once", "statement": "At any point between attempts of a random scan, on each process attempts = kept + sum of all rejection counters; sigma-equation solves = attempts minus those rejected before the solve; O(r^2) solves = attempts minus those rejected before it (zero at first order); kept = number of saved columns.", "quantifier": "all sequences of candidate outcomes, all filter settings, keep_all on or off, first or second order, all clock behaviours", "why_tests_cant": "Histories are unbounded and depend on random numbers and clocks.", "anchors": ["src/scan_random.cpp: Scan::random", "src/scan.hpp"]}
{"id": "C12", "title": "Random scan keeps exactly the configurations that pass every filter", "statement": "A candidate is saved iff its crude R0 check passes and (keep_all or every enabled filter's rejection test is false), independent of the order of the tests; the counter increased is that of the first failing test. With finite values every saved configuration satisfies every threshold.", "quantifier": "all candidates, all thresholds, both orders", "why_tests_cant": "All combinations of thresholds and values.", "anchors": ["src/scan_random.cpp: Scan::random (filters)"]}
{"id": "C13", "title": "What a filtered scan does with NaN: comparisons fail, so a NaN result is saved", "statement": "User expectation: a configuration whose diagnostics are NaN (failed solve) is rejected. The code's tests are all of the form 'x < threshold' / 'x > threshold', so the expectation is false: a candidate whose diagnostics are all NaN passes every filter and is saved.", "quantifier": "all threshold settings", "why_tests_cant": "Tests use convergent configurations; the claim is about every threshold setting.", "anchors": ["src/scan_random.cpp: Scan::random", "src/multiopt_scan.cpp: MultiOptScan::eval_scan_index"]}
{"id": "C14", "title": "Random scan stays within its limits", "statement": "With max_keep_per_proc >= 1 no process saves more than max_keep_per_proc configurations nor writes outside its local arrays; with a positive attempt limit no process attempts more than the limit; once the time limit has passed at most one further attempt is made; the process stops at the first of these events. With max_keep_per_proc = 0 the first kept configuration is written out of bounds.", "quantifier": "all clock readings, all outcome sequences, all limits", "why_tests_cant": "Depends on clocks and unbounded histories; the out-of-bounds write may be silent.", "anchors": ["src/scan_random.cpp: Scan::random"]}
{"id": "C15", "title": "Deterministic scans do not depend on how attempts are split over processes", "statement": "In deterministic mode, the values drawn for a scanned scalar parameter by P processes with A attempts each, in rank order, are exactly those drawn by one process with P*A attempts (same offsets, non-degenerate ranges).", "quantifier": "all P, A, parameters, distributions", "why_tests_cant": "Unbounded number of processes and attempts.", "anchors": ["src/scan_random.cpp: Scan::random (set_to_nth offsets)", "src/random.cpp"]}
{"id": "C16", "title": "Gathering results loses, duplicates and mixes nothing", "statement": "After results are collected, the saved columns on process 0 are the concatenation in rank order of each process's saved columns, for parameters, Fourier amplitudes and helicity consistently; every counter is the sum over processes; the number saved equals the kept counter; the same for every message interleaving.", "quantifier": "all process counts, all local results, all message delivery schedules", "why_tests_cant": "MPI schedules cannot be enumerated by tests; a test sees the one that happens, for a few numbers of processes.", "anchors": ["src/scan_collect_results.cpp: Scan::collect_results"]}
{"id": "C17", "title": "Gathering results terminates under every schedule, and mismatched checkpoint decisions deadlock", "statement": "If all processes enter the collection the same number of times, every schedule (buffered or rendezvous sends) finishes. Because each process decides to checkpoint from its own clock, processes may enter it a different number of times; then no schedule terminates.", "quantifier": "all process counts, all schedules, all per-process checkpoint counts", "why_tests_cant": "Deadlock depends on timing across processes.", "anchors": ["src/scan_collect_results.cpp: Scan::collect_results", "src/scan_random.cpp: Scan::random (checkpoint)"]}
{"id": "C18", "title": "A tensor-product scan index names exactly one combination of parameter values", "statement": "Decoding a scan index gives in-range digits for each parameter; each combination of digits is produced by exactly one index in 0..n-1 where n is the product of the sizes.", "quantifier": "all lists of sizes >= 1, all indices", "why_tests_cant": "Unbounded number of dimensions and sizes.", "anchors": ["src/multiopt_scan.cpp: MultiOptScan::eval_scan_index, MultiOptScan::init"]}
{"id": "C19", "title": "Scan grids hit both end points and are evenly spaced", "statement": "For each scanned parameter with n >= 2 values, the first value is min, the last is max; linear grids have constant differences, log grids (positive min, max) constant ratios; values lie between min and max and are strictly monotone when min < max; a size below 2 throws. Exact arithmetic.", "quantifier": "all n, all min,max", "why_tests_cant": "All sizes and reals.", "anchors": ["src/multiopt_scan.cpp: MultiOptScan::init"]}
{"id": "C20", "title": "Master/worker scan: every index is evaluated exactly once by exactly one worker", "statement": "In a multiopt scan with 2 <= processes <= n+1, in every terminated execution each index 0..n-1 has been evaluated exactly once, every worker received exactly one stop message after its last result, and process 0 stored every result in the column of its index.", "quantifier": "all process counts, all index counts, all message schedules and worker speeds", "why_tests_cant": "Interleavings are unbounded.", "anchors": ["src/multiopt_scan.cpp: MultiOptScan::scan, MultiOptScan::proc0_recv"]}
{"id": "C21", "title": "Master/worker scan: every execution terminates and the stored results do not depend on the schedule", "statement": "With sends that may buffer, no reachable state of the multiopt scan is stuck before completion and every execution is finite; the final result arrays are the same for every schedule. With purely synchronous sends the final stop loop can deadlock, because the stop is sent to worker j rather than to the worker that reported.", "quantifier": "all process counts, index counts, schedules", "why_tests_cant": "Same.", "anchors": ["src/multiopt_scan.cpp: MultiOptScan::scan"]}
{"id": "C22", "title": "Multiopt scan counters are consistent and the mismatch throw is unreachable", "statement": "After a multiopt scan, attempts = number of indices, kept = number of saved columns = number of indices that pass all filters, and the 'mismatch in number of configs saved' exception is never thrown, also at intermediate checkpoints.", "quantifier": "all result sets, all orders of arrival, every intermediate point", "why_tests_cant": "Intermediate points and orders are unbounded.", "anchors": ["src/multiopt_scan.cpp: MultiOptScan::filter_global_arrays, proc0_recv, eval_scan_index"]}
{"id": "C23", "title": "Saved multiopt-scan columns are the passing indices in increasing order, unmixed", "statement": "Column k of every saved array belongs to the k-th smallest passing index; each named output variable holds the value the evaluation computed for that variable (packing and unpacking agree row by row, including the eight Fourier blocks).", "quantifier": "all result sets, all axis sizes", "why_tests_cant": "58 rows plus blocks over unbounded sets of results.", "anchors": ["src/multiopt_scan.cpp: eval_scan_index, filter_global_arrays"]}
{"id": "C24", "title": "Scanned parameters set exactly the named quantity", "statement": "Evaluating an index changes exactly the named parameter in the requested stage (all stages for a negative stage), leaves every other setting at its input value, and throws for an unknown name or for an initial-condition parameter with a non-zero stage.", "quantifier": "all parameter names, stages, values, stage counts", "why_tests_cant": "All strings, stages.", "anchors": ["src/multiopt_scan.cpp: MultiOptScan::eval_scan_index"]}
{"id": "C25", "title": "Newton solver: converged means converged, and the residual never grows", "statement": "If the Newton solver reports convergence then the squared residual norm at the returned state is below tolerance squared and the residual array is the residual of the returned state. The residual norm at the returned state is never larger than at the initial state (real-valued norms).", "quantifier": "all residual and Jacobian functions, all linear-solver behaviours, all tolerances, limits and initial states", "why_tests_cant": "Quantifies over all functions.", "anchors": ["src/newton.cpp: qsc::newton_solve"]}
{"id": "C26", "title": "Newton solver: whether the residual array belongs to the returned state", "statement": "The documented post-condition 'on exit, the residuals at the solution' holds for converged and iteration-limited exits but fails on a line-search failure: then the state is restored while the residual array is that of the last rejected trial.", "quantifier": "all residual functions and executions", "why_tests_cant": "Needs the failing branch; a test in which the solver converges never takes it.", "anchors": ["src/newton.cpp: qsc::newton_solve"]}
{"id": "C27", "title": "Newton solver: bounded work", "statement": "The number of residual evaluations is at most 1 + max_newton_iterations * max_linesearch_iterations and the number of Jacobian evaluations and linear solves at most max_newton_iterations; each Jacobian evaluation is at the state of the most recent residual evaluation.", "quantifier": "all executions", "why_tests_cant": "All executions.", "anchors": ["src/newton.cpp: qsc::newton_solve"]}
{"id": "C28", "title": "Optimizer state vector round trip", "statement": "Packing the configuration into the state vector and unpacking it reproduces the configuration; unpacking then packing reproduces the vector; unpacking changes only varied parameters; the vector length is the number of varied parameters; different vectors give different configurations.", "quantifier": "all vary flags, all array sizes, all vectors", "why_tests_cant": "2^n flag combinations over unbounded sizes.", "anchors": ["src/optimize.cpp: Opt::init_parameters, set_state_vector, unpack_state_vector"]}
{"id": "C29", "title": "Optimizer residual vector has exactly the declared length and blocks", "statement": "For any weights, order and nphi, the number of residual entries written equals the declared number of terms, none is left unwritten and none is written twice; each enabled block starts where the previous one ended; the run is refused iff no term is enabled.", "quantifier": "all weight vectors, orders, nphi", "why_tests_cant": "2^27 weight combinations times all nphi.", "anchors": ["src/optimize.cpp: Opt::init_residuals, Opt::set_residuals"]}
{"id": "C30", "title": "Objective is half the sum of squared residuals, nonnegative, and one-sided penalties are one-sided", "statement": "The recorded objective equals half the sum of squares of the residual vector, hence nonnegative, and each penalty with a bound (minimum R0, maximum d2_volume_d_psi2, minimum DMerc) is zero iff the bound is met.", "quantifier": "all states, weights, nphi (exact arithmetic)", "why_tests_cant": "All reals.", "anchors": ["src/optimize.cpp: Opt::set_residuals"]}
{"id": "C31", "title": "Optimizer iteration history stays in bounds", "statement": "Whatever the least-squares driver does, the total number of recorded iterations never exceeds max_iter, so history arrays are never written out of bounds; all recorded columns before n_iter are written exactly once, in order.", "quantifier": "all driver behaviours, fourier_refine counts, max_iter", "why_tests_cant": "Environment behaviours are unbounded.", "anchors": ["src/optimize.cpp: Opt::optimize, gsl_callback", "src/opt_allocate.cpp: Opt::allocate"]}
{"id": "C32", "title": "Fourier refinement adds modes one at a time and never disturbs existing ones", "statement": "With fourier_refine = F, the axis arrays grow by F zero modes; at refinement step j exactly the modes below the original size plus j (subject to user flags on the original modes) may vary; the number of varied parameters grows by 2 per step.", "quantifier": "all F, array sizes, flags", "why_tests_cant": "All sizes.", "anchors": ["src/optimize.cpp: Opt::optimize"]}
{"id": "C33", "title": "Multi-stage optimization passes each stage's result on", "statement": "Stage j+1 starts from the axis shape and parameters stage j ended with; total evaluations is the sum over stages; the number of stages must be at least one; output names of different stages are distinct.", "quantifier": "all stage counts and stage behaviours", "why_tests_cant": "All behaviours.", "anchors": ["src/multiopt.cpp: MultiOpt::optimize, MultiOpt::input, MultiOpt::write_netcdf"]}
{"id": "C34", "title": "Order option is decided exactly", "statement": "Validation accepts exactly 'r1','r2','r2.1' and sets the order flags accordingly; every other string throws; afterwards at_least_order_r2 iff the option is not r1.", "quantifier": "all strings", "why_tests_cant": "All strings.", "anchors": ["src/validate.cpp: Qsc::validate"]}
{"id": "C35", "title": "Grid resolution is always odd and stable", "statement": "After allocation nphi is odd, at least the requested value and at most one more; allocating again changes nothing; all profile arrays have length nphi and all operators nphi x nphi.", "quantifier": "all requested nphi >= 1", "why_tests_cant": "All sizes.", "anchors": ["src/allocate.cpp: Qsc::allocate"]}
{"id": "C36", "title": "Driver runs exactly the calculation that was asked for", "statement": "The command-line driver returns an error unless given one argument; it runs exactly one calculation, chosen by general_option (default 'single') among single, random, opt, multiopt, multiopt_scan, and throws for every other value. The README documents the random scan under the name 'scan'; that documented value throws.", "quantifier": "all argument counts and strings", "why_tests_cant": "All strings.", "anchors": ["src/driver.cpp: qsc::driver"]}
{"id": "C37", "title": "Spectral differentiation matrix: antisymmetric, circulant, kills constants", "statement": "For every odd n and interval the differentiation matrix is antisymmetric and circulant, so every row and every column sums to zero: constants differentiate to exactly 0 (exact arithmetic).", "quantifier": "all odd n, all intervals", "why_tests_cant": "All n.", "anchors": ["src/differentiation_matrix.cpp: qsc::differentiation_matrix"]}
{"id": "C38", "title": "Spectral differentiation is exact on resolved Fourier modes", "statement": "For every odd n the matrix applied to samples of cos(kx) and sin(kx), scaled to the interval, equals the exact derivative at the grid points for all |k| <= (n-1)/2 (exact arithmetic).", "quantifier": "all odd n, all resolved k, all intervals", "why_tests_cant": "All n and k; tests check a few n against stored numbers.", "anchors": ["src/differentiation_matrix.cpp: qsc::differentiation_matrix"]}
{"id": "C39", "title": "Axis derivatives are derivatives, and the Frenet frame is orthonormal", "statement": "The code's first, second and third phi-derivative sums are the derivatives of the axis Fourier sums; wherever curvature is nonzero, tangent, normal, binormal form a right-handed orthonormal frame; curvature and torsion equal the classical formulas for the curve (exact arithmetic).", "quantifier": "all Fourier coefficient lists, nfp, phi", "why_tests_cant": "All coefficient vectors and angles.", "anchors": ["src/init_axis.cpp: Qsc::init_axis"]}
{"id": "C40", "title": "Boozer angle along the axis", "statement": "The toroidal Boozer angle starts at 0 at phi=0, is strictly increasing along the grid for a nondegenerate axis, and would close up at 2 pi / nfp after the last interval (exact arithmetic).", "quantifier": "all positive arc-length profiles, nphi, nfp", "why_tests_cant": "All profiles.", "anchors": ["src/init_axis.cpp: Qsc::init_axis"]}
{"id": "C41", "title": "Sigma-equation Jacobian is the exact derivative of the residual", "statement": "For any profiles and any differentiation operator, residual(x+d) - residual(x) - J(x) d is exactly the quadratic term of the equation; so Newton's method is applied to the right matrix, including the first column where the unknown is iota and sigma at the first point is fixed.", "quantifier": "all states, increments, profiles, nphi", "why_tests_cant": "All vectors; finite differences in tests are approximate.", "anchors": ["src/calculate_r1.cpp: Qsc::sigma_eq_residual, Qsc::sigma_eq_jacobian"]}
{"id": "C42", "title": "First-order shape invariants", "statement": "X1c*Y1s = sG*spsi at every grid point, elongation is at least 1 everywhere with equality only for a circle, satisfies the ellipse relation e + 1/e = (X1c^2+Y1s^2+Y1c^2)/|X1c Y1s|, and mean elongation lies between 1 and the maximum (exact arithmetic).", "quantifier": "all nonzero curvature and eta_bar, all sigma", "why_tests_cant": "All reals.", "anchors": ["src/calculate_r1.cpp: Qsc::solve_sigma_equation, Qsc::r1_diagnostics"]}
{"id": "C43", "title": "The O(r^2) linear system is the right one", "statement": "Any solution of the assembled 2nphi x 2nphi system, after back-substitution, satisfies the two second-order quasisymmetry equations at every grid point, for any differentiation operator and profiles; conversely any solution of the equations solves the system.", "quantifier": "all nphi, profiles, differentiation matrices, solver solutions", "why_tests_cant": "All vectors and matrices over unbounded nphi.", "anchors": ["src/calculate_r2.cpp: Qsc::calculate_r2"]}
{"id": "C44", "title": "Second-order diagnostics: B20 anomaly averages to zero, variation is nonnegative, extrema are attained", "statement": "The weighted mean of the B20 anomaly is zero, the B20 residual and grid variation are nonnegative and vanish iff B20 is constant, and reported grid maxima/minima bound all grid values and are attained.", "quantifier": "all profiles and positive weights", "why_tests_cant": "All profiles.", "anchors": ["src/calculate_r2.cpp: Qsc::calculate_r2, r2_diagnostics"]}
{"id": "C45", "title": "Mercier terms", "statement": "DMerc is the sum of the well and geodesic terms, the geodesic term is never positive, and zero pressure gradient gives zero for all three (exact arithmetic, positive weights).", "quantifier": "all profiles and parameters", "why_tests_cant": "All reals.", "anchors": ["src/mercier.cpp: Qsc::mercier"]}
{"id": "C46", "title": "Quartic root finder builds the companion matrix of its polynomial", "statement": "The eigenvalues of the matrix handed to LAPACK are exactly the roots of the input quartic (nonzero leading coefficient), with the code's column-major layout.", "quantifier": "all coefficients with nonzero leading coefficient, all complex numbers", "why_tests_cant": "All reals.", "anchors": ["src/quartic_roots.cpp: quartic_roots"]}
{"id": "C47", "title": "r_singularity is the smallest singular radius", "statement": "A reported radius is positive and, within the tolerances, a point where the truncated Jacobian and its theta-derivative vanish at the reported angle. With exact roots and tolerances that do not reject them, no smaller positive radius has that property, and 1e30 is reported if there is none - with three exceptions, each shown by a configuration whose singularity is missed: the scaling coefficient K4c vanishes, the mirrored angle with negative cosine of the double angle solves the same equations, or the equation for the radius degenerates to a linear one.", "quantifier": "all Jacobian coefficients", "why_tests_cant": "All reals.", "anchors": ["src/r_singularity.cpp: Qsc::calculate_r_singularity"]}
{"id": "C48", "title": "grad B tensor on axis is consistent with Maxwell's equations", "statement": "On the magnetic axis of a vacuum, stellarator first-order solution the computed grad B tensor is traceless, and symmetric when the current-free sigma equation holds; L_grad_B = B0 sqrt(2/||grad B||^2) (exact arithmetic).", "quantifier": "all profiles satisfying the first-order equations", "why_tests_cant": "All profiles.", "anchors": ["src/grad_B_tensor.cpp: Qsc::calculate_grad_B_tensor"]}
{"id": "C49", "title": "Named configurations are well formed", "statement": "Every advertised configuration name produces a configuration whose axis arrays have equal length, whose order flags are valid and whose nphi is odd after construction; any other name throws.", "quantifier": "all strings", "why_tests_cant": "All strings.", "anchors": ["src/configurations.cpp: Qsc::Qsc(std::string)"]}
{"id": "C50", "title": "NetCDF writer pairs each variable with its own data", "statement": "For any sequence of put calls, closing the file writes for every variable the data pointer, type and dimensions given in its own put call, and equal string lengths share one dimension.", "quantifier": "all sequences of put calls", "why_tests_cant": "All sequences.", "anchors": ["src/netcdf_writer.cpp: NetCDFWriter::put, write_and_close"]}
{"id": "C51", "title": "Configuration after the sigma solve belongs to the last residual evaluation", "statement": "After the Newton solve, sigma and iota of the configuration are those of the last residual evaluation, because the residual routine stores them and the returned state is not read again. They equal the solver's returned state whenever the solver converged or ran out of iterations; after a line search failure they are those of the rejected trial, whose residual is larger than that of the returned state.", "quantifier": "all residual functions, linear solver behaviours, limits and initial states", "why_tests_cant": "Needs the failing branch, and all functions.", "anchors": ["src/calculate_r1.cpp: Qsc::sigma_eq_residual, Qsc::solve_sigma_equation", "src/newton.cpp: qsc::newton_solve"]}
{"id": "C52", "title": "Order flags: set before use in single runs and scans, read unset by an optimization", "statement": "The flags at_least_order_r2, order_r2p1 and order_r3 have no initial value; validate sets them and allocate reads them. Single runs and scans validate before allocating. An optimization allocates its configuration before validating it, so it always reads unset flags; the validation and allocation that follow give the same grid and array sizes whatever the flags were.", "quantifier": "all orders, resolutions and values of the flags", "why_tests_cant": "Reading an uninitialised bool rarely changes a test run.", "anchors": ["src/optimize.cpp: Opt::run, Opt::allocate", "src/qsc.cpp: Qsc::init", "src/allocate.cpp: Qsc::allocate", "src/validate.cpp: Qsc::validate"]}
{"id": "C53", "title": "The optimizer ends at the configuration it recorded last, unless the library makes no progress", "statement": "A refinement step starts from, and a run ends with, the configuration of the last recorded iteration. True whenever no call of the least-squares library fails to make progress in its very first iteration. Otherwise false: the library returns without a callback, the configuration keeps the last rejected trial, and the next refinement step (or optimization stage) starts from it.", "quantifier": "all library behaviours, physics, refinements and settings", "why_tests_cant": "Needs a first iteration without progress, and all behaviours.", "anchors": ["src/optimize.cpp: Opt::optimize, gsl_residual_function, gsl_callback"]}
{"id": "C54", "title": "Newton solver follows its line search rule exactly", "statement": "The exit status and returned state are those of the step rule and of nothing else: stop as converged when the norm compares below the tolerance; otherwise take the Newton direction of this iteration and try the full step, then half, then a quarter..., accepting the first trial whose norm compares below the current norm; if no trial does, accept the last one unless its norm compares larger, in which case report a line search failure and return the current state; stop at the iteration limit.", "quantifier": "all residual functions, linear solver behaviours, asymmetric comparisons (NaN included), limits and initial states", "why_tests_cant": "Quantifies over all functions and over NaN.", "anchors": ["src/newton.cpp: qsc::newton_solve"]}
{"id": "C55", "title": "Optimizer evaluation counts", "statement": "Whenever an optimization ends, it went through refinement steps 0, 1, ... (at most fourier_refine + 1), n_evals is exactly the number of points the least-squares library evaluated in them, and each step recorded one history column for its start and one per iteration, except that a first iteration without progress leaves none.", "quantifier": "all library behaviours, physics, refinements and settings", "why_tests_cant": "All behaviours of the library.", "anchors": ["src/optimize.cpp: Opt::optimize, gsl_residual_function, gsl_callback"]}
{"id": "C56", "title": "Axis length, means and extrema", "statement": "The stored minimum major radius and maximum curvature are attained bounds over the grid; mean and standard deviation of R and Z and the rms curvature are the length-weighted averages they are called; hence the mean R is at least the minimum, a standard deviation is zero exactly for a profile constant on the grid, and the rms curvature is at most the maximum; G0 = sG B0 length / (2 pi); arrays too short for the modes in R0c are read out of bounds and modes beyond R0c are ignored (exact arithmetic).", "quantifier": "all axis shapes that avoid R = 0, all grid sizes", "why_tests_cant": "All shapes.", "anchors": ["src/init_axis.cpp: Qsc::init_axis"]}
{"id": "C57", "title": "What the sigma solve leaves behind", "statement": "After solve_sigma_equation a pair (iota, sigma) is stored with sigma at the first point equal to the input value. If convergence is reported, the stored pair satisfies the sigma equation with sum of squares below the squared tolerance, whatever the linear solver did; at the iteration limit it does not; except after a failed line search the sum of squares is at most that of the initial guess.", "quantifier": "all profiles, differentiation matrices, linear solver behaviours, tolerances and limits", "why_tests_cant": "All profiles and solver behaviours.", "anchors": ["src/calculate_r1.cpp: Qsc::solve_sigma_equation, Qsc::sigma_eq_residual", "src/newton.cpp: qsc::newton_solve"]}
{"id": "C58", "title": "The computed O(r^2) solution is a magnetic field in force balance", "statement": "If the linear solve is exact, the sigma equation holds and the differentiation matrix obeys the product rule for the first-order profiles, then there are third-order tangential coefficients for which the covariant and contravariant expressions of the field agree with an error of third order in r (normal, binormal) and second order (tangential); the field strength is the reported one up to third order for any solution vector; and the magnetic force balances the pressure gradient up to second order.", "quantifier": "all axes without inflection points, all inputs, all grid sizes, all poloidal angles", "why_tests_cant": "A statement about expansions in r at every angle and grid size; tests compare a few configurations with stored numbers.", "anchors": ["src/calculate_r2.cpp: Qsc::calculate_r2"]}
{"id": "C59", "title": "The O(r^3) coefficients cancel the remaining average of the tangential component", "statement": "With X3c1 and Y3s1 of calculate_r2p1 the poloidal average of the tangential component of the field equation vanishes at second order, and the third-order coefficients are a common factor times the first-order ones.", "quantifier": "all inputs, all grid points", "why_tests_cant": "An identity between expansions for all inputs.", "anchors": ["src/calculate_r2.cpp: Qsc::calculate_r2p1"]}
{"id": "C60", "title": "Jacobian coefficients of r_singularity are the expansion of the true Jacobian", "statement": "The coefficients g0, g1c, g20, g2s, g2c from which the singular radius is computed are the first three orders, in the distance r from the axis, of the Jacobian of the position vector built from the axis and the first- and second-order coefficients; the difference is of fourth order. The leading coefficient never vanishes and g1c = -2 eta_bar g0 (exact arithmetic).", "quantifier": "all axes without inflection points, all inputs, all grid points, all poloidal angles", "why_tests_cant": "A statement about an expansion in r at every angle.", "anchors": ["src/r_singularity.cpp: Qsc::calculate_r_singularity"]}
{"id": "C61", "title": "Reading a written configuration restores it", "statement": "A netCDF file written for any configuration with members of the declared types and sizes and odd nphi can be read into any object; afterwards the three order flags, nphi and each of the listed scalars and grid arrays have the values they had when the file was written. The axis coefficients and order_r_option are not read and stay as they were. allocate makes nphi odd, gives every grid array the declared size and changes no scalar, string or axis coefficient.", "quantifier": "all configurations, orders, grid sizes, contents of the members, and all objects read into", "why_tests_cant": "All contents and sizes; the tests read files for a few configurations.", "anchors": ["src/qsc_write_netcdf.cpp: Qsc::write_netcdf", "src/read_netcdf.cpp: Qsc::read_netcdf", "src/allocate.cpp: Qsc::allocate"]}
{"id": "C62", "title": "The variables of an output file hold what they are named after", "statement": "Writing the file of a configuration, a scan or a scan with optimizations never uses a name twice, never reads past the end of a member, and succeeds also when no configuration was kept; every variable holds an expression with its own name (a member, its integer form, the member of the configuration, or the counter or fraction with that name), with the type it has in memory and as many elements as its dimensions say; every per-configuration array of a scan is in the file.", "quantifier": "all order flags, keep_all settings, sizes and contents of the members", "why_tests_cant": "All sizes and contents; the tests do not read most variables back.", "anchors": ["src/qsc_write_netcdf.cpp: Qsc::write_netcdf", "src/scan_write_netcdf.cpp: Scan::write_netcdf", "src/multiopt_scan_write_netcdf.cpp: MultiOptScan::write_netcdf"]}
{"id": "C63", "title": "The file of an optimization is the file of its configuration with the history added", "statement": "Opt::write_netcdf keeps every variable of the file of its configuration, uses no name twice, reads nothing out of bounds, and adds for every history array a variable of the same name with its first n_iter entries.", "quantifier": "all configurations, histories and numbers of iterations", "why_tests_cant": "All sizes and contents.", "anchors": ["src/opt_write_netcdf.cpp: Opt::write_netcdf"]}
{"id": "C64", "title": "The grad B tensor is the first derivative of the field on the axis", "statement": "Let the field be B^2/(G + iota_N I) times (d position/d phi + iota_N d position/d theta) with the computed first- and second-order coefficients and any third-order coefficients. At every grid point, for every angle and every component in the Frenet frame, the field minus sG B0 t minus the position times grad_B_tensor is of second order in the distance r from the axis (exact arithmetic, product rule for X1c Y1s at the grid point).", "quantifier": "all axes without inflection points, all inputs, all solution vectors, grid points and angles", "why_tests_cant": "A statement about an expansion in r at every angle; the tests compare two formulas with each other.", "anchors": ["src/grad_B_tensor.cpp: Qsc::calculate_grad_B_tensor", "src/calculate_r2.cpp: Qsc::calculate_r2"]}
{"id": "C65", "title": "The grad grad B tensor is the second derivative of the field on the axis", "statement": "The field of C64 minus its Taylor polynomial of second order with grad_B_tensor and grad_grad_B_tensor is of third order in r, at every angle and in every component; the entries across the axis are the only ones, symmetric in the two directions, with that property. The tensor is symmetric in the two directions of differentiation, and its entries with the tangent as a direction are the derivative of the grad B tensor along the axis in the turning frame (exact arithmetic, profiles that are smooth along the axis).", "quantifier": "all axes without inflection points, all inputs, all solution vectors, grid points, angles and third-order coefficients", "why_tests_cant": "A statement about an expansion in r at every angle and its uniqueness.", "anchors": ["src/grad_B_tensor.cpp: Qsc::calculate_grad_grad_B_tensor", "src/calculate_r2.cpp: Qsc::calculate_r2"]}
{"id": "C66", "title": "The two calculations of the grad grad B tensor agree", "statement": "The 27 elements of the main calculation equal those of the alternative calculation, given the relations of the first-order solution, the two area relations of second order and the product rule for X1c Y1s, once and twice (exact arithmetic).", "quantifier": "all inputs, all solution vectors and grid points", "why_tests_cant": "The tests compare them for a few configurations with rounding tolerance.", "anchors": ["src/grad_B_tensor.cpp: Qsc::calculate_grad_grad_B_tensor", "src/grad_B_tensor.cpp: Qsc::calculate_grad_grad_B_tensor_alt"]}
{"id": "C67", "title": "The length scale of the second derivative", "statement": "For positive B0, L_grad_grad_B is positive, its square times the norm of the tensor over all 27 elements is 4 B0, L_grad_grad_B_inverse is its inverse, and the reported minimum is the smallest value on the grid. For the field of a straight wire that scale is the distance from the wire.", "quantifier": "all inputs, solution vectors and grid points", "why_tests_cant": "All inputs.", "anchors": ["src/grad_B_tensor.cpp: Qsc::calculate_grad_grad_B_tensor"]}
{"id": "C68", "title": "The grad grad B tensor obeys Maxwell's equations", "statement": "All three traces of the tensor over a direction and the component vanish (the divergence is zero to second order). If the second-order system is solved and the sigma equation holds, the current of the covariant representation is 2 sG spsi I2 along the tangent on the axis and the curl of the tensor is its gradient, with an error of second order in r at every angle; along the axis the curl is the rate of turning of that current. Without current and pressure gradient the tensor is symmetric in all three indices (exact arithmetic, profiles that are smooth along the axis).", "quantifier": "all inputs, exact solutions, grid points and angles", "why_tests_cant": "A statement about an expansion in r at every angle, for every solution.", "anchors": ["src/grad_B_tensor.cpp: Qsc::calculate_grad_grad_B_tensor", "src/calculate_r2.cpp: Qsc::calculate_r2"]}
{"id": "C69", "title": "A scan file is accepted exactly if it is correct, and every member gets its value", "statement": "Scan::input succeeds exactly if the file has sections [qsc] and [scan], the first is acceptable, every key of the second is documented and has its type. Then every member is what the file says or keeps its value if the file says nothing, no other member changes, and the eight arrays that bound the axis shapes are padded with zeros to the longest of them.", "quantifier": "all files (any sections, keys, values and sizes), all earlier values of the members", "why_tests_cant": "All files and all combinations of keys; the tests read a few files.", "anchors": ["src/scan_input.cpp: Scan::input", "src/toml_util.cpp: toml_read, toml_unused, pad_vector"]}
{"id": "C70", "title": "An optimization file is accepted exactly if it is correct, and every member gets its value", "statement": "Opt::input succeeds exactly if [qsc] is acceptable and gives at least one axis amplitude, every key of the section of the optimization is documented and has its type, the names of the algorithm and the difference method are known, and there is one resolution for each refinement step or none. The members are then what the file says or the defaults; the default flag arrays have the length of the axis arrays. If no amplitude is given, the code writes to the first element of an empty array.", "quantifier": "all files, all earlier values of the members", "why_tests_cant": "All files and all combinations of keys.", "anchors": ["src/opt_input.cpp: Opt::input", "src/toml_util.cpp: toml_read, toml_unused"]}
{"id": "C71", "title": "Each stage of a multi-stage optimization is read from its own section", "statement": "MultiOpt::input succeeds exactly if [multiopt] has an integer nopts of at least 1 and at most verbose besides, and every section [opt<j>] for j < nopts is acceptable together with [qsc]. Stage j depends only on [qsc] and [opt<j>]; the names of the sections are distinct and differ from all other sections. If nopts is missing, an uninitialised variable is used.", "quantifier": "all files, all numbers of stages", "why_tests_cant": "All files; unbounded number of stages.", "anchors": ["src/multiopt.cpp: MultiOpt::input", "src/opt_input.cpp: Opt::input"]}
{"id": "C72", "title": "A file for a scan of multi-stage optimizations is accepted exactly if it is correct", "statement": "MultiOptScan::input succeeds exactly if the file is acceptable for MultiOpt::input, [multiopt_scan] has only documented keys of the right types, and the arrays that describe the scanned parameters have one entry for each parameter; then every member is what the file says or its earlier value.", "quantifier": "all files, all numbers of scanned parameters", "why_tests_cant": "All files and sizes.", "anchors": ["src/multiopt_scan_input.cpp: MultiOptScan::input"]}
{"id": "C73", "title": "After reading a file no member that has a key is uninitialised", "statement": "Opt::defaults, Scan::defaults and the constructors of MultiOptScan give every member that can be set in the file a value of its type; hence after any accepted file every such member of an optimization, a scan, a multi-stage optimization and a scan of these has a value of its type.", "quantifier": "all accepted files", "why_tests_cant": "All files; an uninitialised member is invisible to a test that happens to find a harmless value.", "anchors": ["src/opt.cpp: Opt::defaults", "src/scan.cpp: Scan::defaults", "src/multiopt.cpp: MultiOpt::MultiOpt, MultiOpt::input", "src/multiopt_scan.cpp: MultiOptScan::defaults", "src/opt_input.cpp: Opt::input"]}
{"id": "C74", "title": "An optimization from an accepted file never leaves its arrays", "statement": "For an accepted file with non-negative sizes the run ends normally or with one of the documented exceptions; no array is left and no assert fails. If it ends normally, the flags cover the amplitudes of the file, at most max_iter columns of the history were written in order, every axis array has fourier_refine modes more than in the file, and everything that was not to be varied is as in the file. Without a positive weight, in particular without any weight key, the run is refused. A negative fourier_refine is accepted and leads to writing outside the arrays.", "quantifier": "all files, all evaluations and answers of the library", "why_tests_cant": "All files and histories; crosses the input, the residual set-up and the optimization loop.", "anchors": ["src/opt_input.cpp: Opt::input", "src/optimize.cpp: Opt::optimize, Opt::init_residuals", "src/opt_allocate.cpp: Opt::allocate"]}
{"id": "C75", "title": "A multi-stage optimization from an accepted file never leaves its arrays", "statement": "For an accepted file with non-negative sizes the run ends normally or with a documented exception. If it ends normally, every stage of the file has run once, all stages were read with the same [qsc], the flags given for stage i cover the modes of the file and those added by earlier stages, and its arrays have these modes and its own fourier_refine more. A stage after a refinement without explicit flags makes the run end with an exception.", "quantifier": "all files, all numbers of stages, all answers of the library", "why_tests_cant": "All files and histories; unbounded number of stages.", "anchors": ["src/multiopt.cpp: MultiOpt::input, MultiOpt::optimize", "src/opt_input.cpp: Opt::input", "src/optimize.cpp: Opt::optimize"]}
{"id": "C76", "title": "A random scan starts exactly if the distributions of its file are possible, and saves exactly what the file asks for", "statement": "A scan from an accepted file starts exactly if the order option is known and every range of the file (the five scalars, and every axis amplitude with its common option) is possible for its distribution; otherwise it ends with an exception before the first attempt. Every attempt lies inside the bounds of the file. A process saves exactly those attempts that meet every requirement of the file, in order and nothing else (exact arithmetic).", "quantifier": "all files, all random streams in [0,1], all numbers of attempts, all ranks, all results of the calculation", "why_tests_cant": "All files and all random streams; crosses the input, the random generators, the loop and the filters.", "anchors": ["src/scan_input.cpp: Scan::input", "src/scan.cpp: Scan::defaults", "src/scan_random.cpp: Scan::random", "src/random.cpp: Random::Random, Random::get", "src/qsc.cpp: Qsc::validate"]}
{"id": "C77", "title": "The arrays in the output of a random scan obey the bounds and thresholds of the input file", "statement": "After a scan on any number of processes all arrays of the output describe one list of configurations: the attempts, in rank order, that meet the requirements of the input file. Every entry of the arrays of inputs lies inside the bounds of the file, every axis amplitude inside the bounds of its mode, and, if not everything is kept, every iota and elongation meets its threshold (exact arithmetic).", "quantifier": "all files, all numbers of processes, all random streams", "why_tests_cant": "All files and numbers of processes; crosses the input, the loop and the collection of results.", "anchors": ["src/scan_input.cpp: Scan::input", "src/scan_random.cpp: Scan::random", "src/scan_collect_results.cpp: Scan::collect_results"]}
{"id": "C78", "title": "A scan of multi-stage optimizations evaluates exactly the grid described by its input file", "statement": "A scan from an accepted file with non-negative sizes starts exactly if every scanned parameter has at least two values; every combination of values belongs to exactly one grid point. The parameters of a grid point can be set exactly if each is a scannable setting of an existing stage (or of all), or an initial condition of the first stage with a mode that the file gives. Then each stage of the grid point is the stage of the file with exactly the named places replaced, by the values with equal steps or equal ratios between the bounds; the last parameter that names a place wins.", "quantifier": "all files, all numbers of stages and scanned parameters, all grid points", "why_tests_cant": "All files and grids; a test runs one small grid.", "anchors": ["src/multiopt_scan_input.cpp: MultiOptScan::input", "src/multiopt_scan.cpp: MultiOptScan::init, MultiOptScan::eval_scan_index"]}
{"id": "C79", "title": "The output of a scan of multi-stage optimizations contains the settings of its grid points", "statement": "The evaluation of a grid point never leaves an array if the first stage allows at least one iteration; with max_iter = 0 the code reads the first element of an empty array. After a scan on any number of workers and with any schedule, the output and every checkpoint have one column for each kept grid point, in the order of the grid; these contain p2 and the initial condition of the grid point, the settings of its last stage, and the configuration with which its last stage ended. The initial condition is recorded only at order r2.1 and with max_iter of at least 2; otherwise zeros are written.", "quantifier": "all files, all numbers of workers, all schedules, checkpoints and answers of the library", "why_tests_cant": "All files and schedules; crosses the input, the optimization, the communication and the output.", "anchors": ["src/multiopt_scan.cpp: MultiOptScan::eval_scan_index, MultiOptScan::scan, MultiOptScan::filter_global_arrays", "src/multiopt.cpp: MultiOpt::optimize", "src/optimize.cpp: Opt::optimize"]}
{"id": "C80", "title": "A single run ends with an output file exactly for the input files that describe a configuration", "statement": "Qsc::run ends with an output file only if the file name is that of an input file and the section [qsc] describes a configuration with a known order, a non-negative nphi, a positive number of field periods and an axis; the name of the output is made from that of the input. For every such file the run ends, unless a LAPACK routine fails, and then with its exception. Wrong names, files that are not accepted, unknown orders, a negative nphi and an empty axis end in their own errors.", "quantifier": "all files, names, contents of memory and answers of LAPACK; exact real arithmetic", "why_tests_cant": "All files; crosses name, input, validation, allocation, calculation and output.", "anchors": ["src/qsc.cpp: Qsc::run, Qsc::calculate", "src/qsc_input.cpp: Qsc::input", "src/outfile.cpp: outfile", "src/validate.cpp: Qsc::validate", "src/allocate.cpp: Qsc::allocate", "src/qsc_write_netcdf.cpp: Qsc::write_netcdf"]}
{"id": "C81", "title": "The output of a single run repeats the settings and contains the axis of the input file", "statement": "In the output file of every run, each setting stands under its name with the value that the input file gives (or the default). The variables for the axis are those of the curve that the input file describes: position and its derivatives, arc length, curvature, torsion, averages, extrema, the Boozer angle, the differentiation matrices and the helicity. What is found under a name is unique.", "quantifier": "all input files, all grid sizes, all Fourier coefficients; exact real arithmetic", "why_tests_cant": "All input files; a test compares the numbers of one file.", "anchors": ["src/qsc.cpp: Qsc::run", "src/init_axis.cpp: Qsc::init_axis", "src/qsc_write_netcdf.cpp: Qsc::write_netcdf", "src/qsc_input.cpp: Qsc::input"]}
{"id": "C82", "title": "The output of a single run contains the first-order solution of the axis of the input file", "statement": "X1c, Y1s, Y1c, their derivatives, elongation and its maximum and average, grad_B_tensor and its scale length in the output file fulfil the first-order equations with the axis of the input file and with sigma, iota and helicity of the same output file. The residual of the sigma equation made from the file is below the tolerance if the Newton solver reported convergence, not below if it stopped at the iteration limit, and not above that of the initial guess unless a line search failed.", "quantifier": "all input files with a curved axis and eta_bar, sG, spsi not zero; all answers of LAPACK; exact real arithmetic", "why_tests_cant": "All input files; crosses the axis, the Newton solver, the first order and the output.", "anchors": ["src/qsc.cpp: Qsc::run, Qsc::calculate", "src/calculate_r1.cpp: Qsc::solve_sigma_equation, Qsc::r1_diagnostics", "src/qsc_write_netcdf.cpp: Qsc::write_netcdf"]}
{"id": "C83", "title": "The result of a single run does not depend on what the memory contained before", "statement": "Whatever the members of the Qsc object contain before the run (values never set by the constructor, arrays from earlier calculations), the run has the same outcome: the same error or the same output file.", "quantifier": "all contents of the members, all input files, any arithmetic", "why_tests_cant": "Tests start from one state of the memory; reads of members that were never set go unnoticed.", "anchors": ["src/qsc.cpp: Qsc::run, Qsc::calculate, Qsc::Qsc", "src/allocate.cpp: Qsc::allocate", "src/qsc_write_netcdf.cpp: Qsc::write_netcdf"]}
{"id": "C84", "title": "The output of a single run contains a second- and third-order solution for the axis of the input file", "statement": "With the axis and settings of the input file, the numbers in the output file at order r2 or r2.1 describe a position near the axis for which the field strength is the prescribed one up to third order, the force balance holds, and, with an exact linear solver and smooth profiles, both forms of the field agree up to second order. The tensor in the file is the second derivative of that field; the averages, extrema, Mercier's criterion, the radius of singularity and beta are those of these numbers; at r2.1 the third-order terms make the two forms agree along the axis in the average over theta, and the other harmonics are written as zero.", "quantifier": "all input files with a curved axis, eta_bar and B0 not zero, sG and spsi 1 or -1; all answers of LAPACK; exact real arithmetic", "why_tests_cant": "All input files; crosses the axis, three orders of the expansion, the diagnostics and the output.", "anchors": ["src/qsc.cpp: Qsc::run, Qsc::calculate", "src/calculate_r2.cpp: Qsc::calculate_r2, Qsc::calculate_r2p1", "src/mercier.cpp: Qsc::mercier", "src/grad_B_tensor.cpp: Qsc::calculate_grad_grad_B_tensor", "src/r_singularity.cpp: Qsc::calculate_r_singularity", "src/qsc_write_netcdf.cpp: Qsc::write_netcdf"]}
{"id": "C85", "title": "The differentiation matrix for an even number of points", "statement": "For every even positive number of points and every interval the matrix is built without leaving any array, is antisymmetric and equal along diagonals. Applied to the samples of a trigonometric polynomial of degree below half the number of points, with or without the alternating cosine, it gives the exact derivative at every grid point, except for one term that comes from the reciprocal of the tangent at its pole; that term is bounded by pi max|f| / (|tan| length).", "quantifier": "all even numbers of points, all intervals, all coefficients, every answer of the tangent at its pole; exact real arithmetic otherwise", "why_tests_cant": "Unbounded sizes and all polynomials; tests check a few sizes.", "anchors": ["src/differentiation_matrix.cpp: qsc::differentiation_matrix"]}
{"id": "C86", "title": "The output of an optimization contains the final configuration as a single run would write it", "statement": "An optimization from an accepted input file ends with an output file, with an exception, or by writing results that were never calculated (only in single precision, for an order other than r2.1, or with max_iter below 2). If it ends with an output file, its name is made from that of the input file; everything that a single run for the final configuration writes stands in the file with the same values. The final configuration is that of the input file with the parameters of the last record, on the grid of the last step. Weights, targets, the number of iterations and of evaluations in the file are those of the input file and of the optimizer.", "quantifier": "all input files, all answers of GSL and LAPACK, all contents of the memory; exact real arithmetic", "why_tests_cant": "All input files and histories; crosses input, loop, calculation and output.", "anchors": ["src/opt.cpp: Opt::run", "src/optimize.cpp: Opt::optimize", "src/opt_write_netcdf.cpp: Opt::write_netcdf", "src/opt_input.cpp: Opt::input"]}
{"id": "C87", "title": "The history in the output of an optimization is reproduced by single runs", "statement": "For every column k of the history in the output file, a single run for the parameters in this column, with the other settings of the input file, on the grid of the refinement step in this column, ends with an output file. Each of the recorded results (iota, extrema, averages, ...) is the number in that file. The objective in the column is half the sum of the squares of the weighted residuals, and each term the sum of the squares of its residuals, made from the numbers in that file. The exception is iter_curvature_term, which has the elongation term.", "quantifier": "all input files, all histories, all columns; exact real arithmetic", "why_tests_cant": "All columns of all histories; tests compare a few numbers of one optimization.", "anchors": ["src/optimize.cpp: gsl_callback, Opt::set_residuals, Opt::unpack_state_vector", "src/opt_write_netcdf.cpp: Opt::write_netcdf", "src/qsc.cpp: Qsc::calculate"]}
{"id": "C88", "title": "When an optimization from an input file ends with an output file", "statement": "If an optimization ends with an exception, then for one of these reasons, with its message: an array of flags does not have the size of the axis arrays; no weight is positive; no parameter is varied; the order is unknown; in some step there are fewer residuals than parameters; a LAPACK routine failed. So for flags of the right sizes, a positive weight, a varied parameter, order r2.1, enough residuals, max_iter of at least 2 and double precision the run ends with an output file unless a LAPACK routine fails.", "quantifier": "all input files, all answers of GSL and LAPACK", "why_tests_cant": "All input files and all answers of the libraries.", "anchors": ["src/opt.cpp: Opt::run", "src/optimize.cpp: Opt::optimize, Opt::init_residuals"]}
{"id": "C89", "title": "The output of a random scan contains exactly the attempts whose single runs meet the requirements", "statement": "A random scan on any number of processes that ends has written its output file once per checkpoint and once at the end. Each content belongs to the attempts made so far, which lie in the bounds of the input file and keep to the limits on attempts and on kept configurations; a process stops when a limit is reached or time is up. The arrays in the file have one element for each attempt for which a single run ends and its output meets the requirements of the input file, exactly those and in the order of the processes, with the numbers that the single run writes. The counters in the file count the attempts by the first reason against them, the fractions are these counts divided by the attempts, and the settings are those of the input file. The scalar p2 in the file is that of the last attempt of process 0, not that of the input file.", "quantifier": "all input files, all numbers of processes, all random numbers, all clocks, all schedules of messages, all answers of LAPACK; exact real arithmetic", "why_tests_cant": "All schedules and all random numbers; crosses input, random generators, physics, filters, messages between processes and output.", "anchors": ["src/scan.cpp: Scan::run", "src/scan_random.cpp: Scan::random", "src/scan_collect_results.cpp: Scan::collect_results, Scan::filter_global_arrays", "src/scan_write_netcdf.cpp: Scan::write_netcdf", "src/scan_input.cpp: Scan::input"]}
{"id": "C90", "title": "When a random scan from an input file ends with an output file", "statement": "For an acceptable input file every process comes to the end of its loop, unless LAPACK fails or its clock never says that time is up. Then the scan ends with an output file if and only if all processes make the same number of checkpoints (always without checkpoints). The contents do not depend on the schedule of the processes, and no schedule goes on for ever or gets stuck if the numbers are equal. An input file that cannot be read, bounds that the distribution does not allow, an unknown order, and numbers of grid points or field periods that are not allowed lead to no output file.", "quantifier": "all input files, all numbers of processes, all random numbers, all clocks, all schedules of messages, all answers of LAPACK", "why_tests_cant": "All schedules; a missing end shows only with unlucky clocks.", "anchors": ["src/scan.cpp: Scan::run", "src/scan_random.cpp: Scan::random", "src/scan_collect_results.cpp: Scan::collect_results"]}
{"id": "C91", "title": "The output files of a multi-stage optimization contain the final configuration and the history of each stage", "statement": "After a multi-stage optimization from an input file there is one output file for each stage, named after the input file and the number of the stage. The first stage starts with the configuration in the section [qsc], each other stage where the one before ended, with its axis, its parameters and its grid. What a stage does not vary keeps its value. The file of a stage has everything that a single run for its final configuration writes, the weights and targets of its own section, its numbers of iterations and evaluations, and its history: the first column has the configuration at the start of the stage, and each column is reproduced by a single run as in C87.", "quantifier": "all input files, all numbers of stages, all answers of GSL and LAPACK, all contents of the memory; exact real arithmetic", "why_tests_cant": "All sequences of stages and all histories; crosses input, stages, calculation and output.", "anchors": ["src/multiopt.cpp: MultiOpt::run, MultiOpt::optimize, MultiOpt::write_netcdf", "src/optimize.cpp: Opt::optimize", "src/opt_write_netcdf.cpp: Opt::write_netcdf", "src/multiopt.cpp: MultiOpt::input"]}
{"id": "C92", "title": "When a multi-stage optimization from an input file ends with its output files", "statement": "A multi-stage optimization from an accepted input file ends with its output files, with an exception in some stage for one of the reasons of C88 (with the number of modes and the grid that this stage starts with), or comes to a stage that makes no iteration; the last only in single precision, for an order other than r2.1, or if the stage may make fewer than two iterations. So if in every stage the flags have the sizes that the stages before have made, a weight is positive, a parameter is varied and there are enough residuals, the run ends with all output files unless a LAPACK routine fails.", "quantifier": "all input files, all numbers of stages, all answers of GSL and LAPACK", "why_tests_cant": "All input files, all sequences of stages and all answers of the libraries.", "anchors": ["src/multiopt.cpp: MultiOpt::run, MultiOpt::optimize", "src/optimize.cpp: Opt::optimize, Opt::init_residuals"]}
{"id": "C93", "title": "The output of a scan of multi-stage optimizations contains exactly the grid points to be kept, each as it was optimized", "statement": "A scan of multi-stage optimizations on any number of processes that ends has written its output file once per checkpoint and once at the end (never with quit_after_init). Every grid point was optimized from the settings and initial conditions of its place on the grid, stage after stage. The arrays in the last file have one element for each grid point whose final configuration keeps to all thresholds (for every grid point with keep_all), exactly those and in the order of the grid. The element has the final axis and parameters, the initial ones, the settings of the last stage, the number of evaluations, and the results that a single run for the final configuration writes. The counters count the grid points by the thresholds they miss, the fractions are these counts divided by the attempts, and the settings are those of the input file. A file written at a checkpoint is the same for the grid points whose results had arrived.", "quantifier": "all input files, all grids, all numbers of processes, all checkpoints, all schedules of messages, all answers of GSL and LAPACK; exact real arithmetic", "why_tests_cant": "All schedules and all grids; crosses input, grid, stages, calculation, filters, messages between processes and output.", "anchors": ["src/multiopt_scan.cpp: MultiOptScan::run, MultiOptScan::scan, MultiOptScan::eval_scan_index, MultiOptScan::filter_global_arrays", "src/multiopt_scan_write_netcdf.cpp: MultiOptScan::write_netcdf", "src/multiopt_scan_input.cpp: MultiOptScan::input"]}
{"id": "C94", "title": "When a scan of multi-stage optimizations from an input file ends with an output file", "statement": "If sends of process 0 or sends of the workers are buffered, a scan from an accepted input file ends with an output file if and only if there is at least one worker, there are no more workers than grid points, every scanned parameter has at least two values, and every grid point can be evaluated; then every schedule takes at most 6n+2W+1 steps for n grid points and W workers, can be completed, and ends with the file written. The evaluation of a grid point gives results, an exception in some stage for one of the reasons of C88, or comes to a stage that makes no iteration as in C92. So if at this grid point in every stage the flags have the right sizes, a weight is positive, a parameter is varied and there are enough residuals, it gives results unless a LAPACK routine fails.", "quantifier": "all input files, all grids, all numbers of processes, all schedules of messages, all answers of GSL and LAPACK", "why_tests_cant": "All schedules, all grids and all answers of the libraries.", "anchors": ["src/multiopt_scan.cpp: MultiOptScan::run, MultiOptScan::init, MultiOptScan::scan, MultiOptScan::eval_scan_index"]}
{"id": "C95", "title": "Reading a file of the Fortran version", "statement": "If there is a zero byte somewhere in the memory behind the 50 characters of the local array, a file of the Fortran version is read as follows, whatever that memory holds otherwise: the orders are those of order_r_option without its blanks; every quantity of these orders is the one in the file under its Fortran name; with an even number of grid points there is one more, and the functions of the angle are zero there; L_grad_grad_B is the inverse of the inverse scale length; all other members are unchanged or zero. Without that byte the behaviour is undefined for every such file, because the array is read as a C string and the Fortran version stores no zero byte (defect). A file is accepted only if it holds all quantities of the orders it asks for. A text that is shorter than the array is read together with what the memory held before, and one with a zero byte but no blank throws an exception. A file of the C++ version is accepted for the letter C and no other.", "quantifier": "all files, all objects, all contents of the memory", "why_tests_cant": "All contents of the stack behind an array: a test sees the one that happens to be there, usually with a zero byte.", "anchors": ["src/read_netcdf.cpp: Qsc::read_netcdf, NetCDFReader::get"]}
{"id": "C96", "title": "The program from an input file to its output files", "statement": "The program returns 1 exactly when it is not called with one argument, and then writes nothing. Otherwise, if it ends normally, it returns 0, the input file asks for one of the five calculations (single if it says nothing), and its name is qsc_in. with an extension. All files are written to the directory of the input file and named qsc_out., the extension and .nc, with the number of the stage for a multi-stage optimization. No name is used twice in a file. Every file names the calculation it comes from, as in the input file, except that optimizations and multi-stage optimizations say single (defect). Only the sections that belong to the calculation count: input files that agree on these lead to the same outcomes, whatever other sections they have and in whatever order. It does not end normally if a section of the calculation is missing. After an optimization there is an input file for a single run for which the program writes a file whose contents are all in the file of the optimization.", "quantifier": "all command lines, all input files, all numbers of processes, all schedules of messages, all answers of the libraries", "why_tests_cant": "All input files; two runs of the whole program are compared.", "anchors": ["src/driver.cpp: qsc::driver", "src/opt_write_netcdf.cpp: Opt::write_netcdf", "src/qsc.cpp: Qsc::run"]}
{"id": "C97", "title": "Stellarator symmetry of the axis and the first order", "statement": "If R0s and Z0c are zero (a stellarator symmetric axis) and sigma0 = 0, and linear systems are solved exactly, then in the output file of every run that ends each quantity along the axis is even or odd about the first grid point: even are R0, its second derivative, the first and third derivatives of Z0, d_l_d_phi, curvature, torsion, X1c, Y1s, elongation, d_Y1c_d_varphi, L_grad_B and its inverse; odd are Z0, its second derivative, the first and third derivatives of R0, d2_l_d_phi2, sigma, Y1c, d_X1c_d_varphi and d_Y1s_d_varphi. The angles phi and Boozer_toroidal_angle at the mirrored grid point are one field period minus the angle, mean_Z is zero, the differentiation matrices change sign when both indices are mirrored, and the elements of grad_B_tensor are even or odd depending on the number of their normal indices. This holds after any number of Newton steps and line search steps, converged or not.", "quantifier": "all symmetric input files, all numbers of grid points, modes and field periods, all numbers of Newton steps; exact real arithmetic and an exact linear solver", "why_tests_cant": "A symmetry of all quantities for all symmetric inputs; a test compares a few configurations with stored numbers.", "anchors": ["src/init_axis.cpp: Qsc::init_axis", "src/calculate_r1.cpp: Qsc::sigma_eq_residual, Qsc::sigma_eq_jacobian, Qsc::solve_sigma_equation, Qsc::r1_diagnostics", "src/newton.cpp: qsc::newton_solve", "src/grad_B_tensor.cpp: Qsc::calculate_grad_B_tensor"]}
{"id": "C98", "title": "Stellarator symmetry of the second and third order", "statement": "If in addition B2s = 0, each quantity of second order in the output file is even or odd about the first grid point: even are X20, X2c, Y2s, Z2s, B20, B20_anomaly, L_grad_grad_B and its inverse; odd are X2s, Y20, Y2c, Z20, Z2c; every derivative with respect to varphi changes the parity; the elements of grad_grad_B_tensor are even or odd depending on the number of their normal indices. With order r2.1 X3c1, Y3s1 and lambda_for_XY3 are even and Y3c1 is odd, with their derivatives accordingly.", "quantifier": "all symmetric input files of order r2 and r2.1, all numbers of grid points, modes and field periods; exact real arithmetic and an exact linear solver", "why_tests_cant": "A symmetry of all quantities for all symmetric inputs; the coefficients of a linear system of twice the number of grid points have to fit together.", "anchors": ["src/calculate_r2.cpp: Qsc::calculate_r2, Qsc::calculate_r2p1", "src/grad_B_tensor.cpp: Qsc::calculate_grad_grad_B_tensor"]}
{"id": "C99", "title": "For which sizes the integer arithmetic of the arrays is right", "statement": "Sizes and indices are computed in 32-bit int. An array of two, three or four dimensions can be made exactly if its number of elements is at most INT_MAX, and then every element with indices in range is found without overflow at a place of its own; otherwise the behaviour is undefined. So the arrays of a single configuration can be made exactly if nphi is at most 46339 at first order and at most 23169 at second order, and the increment that makes nphi odd never overflows; a negative nphi ends the run with the exception of the allocation. A scan of multi-stage optimizations stores every number of every point at its own place exactly if the number of points times the number of values per point (58, and 8 for each Fourier mode) is at most INT_MAX. A process of a random scan can begin exactly if 20 and 4 times the number of modes times max_keep_per_proc fit, and its number times max_attempts_per_proc plus 7 fits, whether the scan is deterministic or not. Process 0 can collect the results exactly if 20 and 4 times the number of modes times the total number of configurations kept fit.", "quantifier": "all sizes, all indices, all numbers of processes and points, if the machine has the memory", "why_tests_cant": "The limits are met only by arrays of gigabytes or on hundreds of processes; overflow is undefined behaviour, so a test that passes shows nothing.", "anchors": ["src/vector_matrix.cpp: Matrix::resize, Rank3Tensor::resize, Rank4Tensor::resize", "src/vector_matrix.hpp: operator()", "src/allocate.cpp: Qsc::allocate", "src/multiopt_scan.cpp: MultiOptScan::init, MultiOptScan::scan, MultiOptScan::proc0_recv", "src/scan_random.cpp: Scan::random", "src/scan_collect_results.cpp: Scan::collect_results"]}
{"id": "C100", "title": "A run in other units", "statement": "If the input file is written with lengths multiplied by a and field strengths by b (R0c, R0s, Z0c, Z0s times a; eta_bar divided by a; B0 times b; I2 times b/a; p2 times (b/a)^2; B2c and B2s times b/a^2), the run takes the same Newton and line search steps and writes the same file with every number multiplied by the powers of a and b that belong to its unit, to third order: for example curvature by 1/a, G0 by a b, sigma, iota and elongation by 1, grad_B_tensor by b/a, X20 by 1/a, B20 by b/a^2, d2_volume_d_psi2 by 1/(a b^2), DMerc_times_r2 by 1/(a b)^2, X3c1 by 1/a^2; the integers and texts do not change. The results of the search for singularities do not change if only the unit of field strength changes. If the run ends for one choice of units, it ends for all.", "quantifier": "all input files, all positive a and b, all numbers of grid points and modes, all orders, all numbers of Newton steps; exact real arithmetic; at second order with a other than 1, a linear solver whose answer is proportional to the right-hand side", "why_tests_cant": "Compares two runs for all configurations and all units: a wrong factor of a length or a field in any formula breaks it, while only the tests of the axisymmetric case and of the tensors vary B0; with B0 = 1 a missing factor is invisible.", "anchors": ["src/init_axis.cpp: Qsc::init_axis", "src/calculate_r1.cpp: Qsc::sigma_eq_residual, Qsc::sigma_eq_jacobian, Qsc::r1_diagnostics", "src/calculate_r2.cpp: Qsc::calculate_r2, Qsc::calculate_r2p1", "src/grad_B_tensor.cpp: Qsc::calculate_grad_B_tensor, Qsc::calculate_grad_grad_B_tensor", "src/mercier.cpp: Qsc::mercier"]}
{"id": "C101", "title": "Reversal of the field", "statement": "If two input files differ only in the signs of sG, spsi and I2 (the opposite field with the same axis, pressure and field strengths), both runs take the same Newton steps and write the same file except that sG, spsi, I2, G0, G2, grad_B_tensor and grad_grad_B_tensor have the opposite signs: iota, sigma, the shape to third order, B20, the elongation, the magnetic well, the Mercier terms, L_grad_B, L_grad_grad_B and the results of the search for singularities are the same. If one of the runs ends, so does the other.", "quantifier": "all input files, all numbers of grid points and modes, all orders, all numbers of Newton steps, all linear solvers and eigenvalue routines; exact real arithmetic", "why_tests_cant": "Compares two runs for all configurations: a forgotten or extra factor of sG or spsi in any of the formulas breaks it, while only the tests of the axisymmetric case and of the tensors vary sG and spsi; with both equal to 1 such a factor is invisible.", "anchors": ["src/calculate_r1.cpp: Qsc::sigma_eq_residual, Qsc::sigma_eq_jacobian, Qsc::r1_diagnostics", "src/calculate_r2.cpp: Qsc::calculate_r2, Qsc::calculate_r2p1", "src/grad_B_tensor.cpp: Qsc::calculate_grad_B_tensor, Qsc::calculate_grad_grad_B_tensor", "src/mercier.cpp: Qsc::mercier", "src/r_singularity.cpp: Qsc::calculate_r_singularity"]}
{"id": "C102", "title": "The sign of eta_bar", "statement": "If two input files differ only in the sign of eta_bar (the poloidal angle is counted from the opposite side), both runs take the same Newton steps and write the same file except that the coefficients of odd multiples of the poloidal angle have the opposite signs: eta_bar, X1c, Y1s, Y1c, beta_1s, X3c1, Y3c1, Y3s1 and their derivatives. In particular iota, sigma, all of second order, B20, grad_B_tensor, grad_grad_B_tensor, the scale lengths, the Mercier terms and the results of the search for singularities are the same, although the two angles of each root are tried in the opposite order. If one of the runs ends, so does the other.", "quantifier": "all input files, all numbers of grid points and modes, all orders, all numbers of Newton steps, all eigenvalue routines; exact real arithmetic; at second order a linear solver that gives the same answer if the matrix and the right-hand side both change sign", "why_tests_cant": "Compares two runs for all configurations: a factor of eta_bar, X1c, Y1c or Y1s too many or too few in any formula, or a search that misses one of the two angles, breaks it.", "anchors": ["src/calculate_r1.cpp: Qsc::sigma_eq_residual, Qsc::sigma_eq_jacobian, Qsc::r1_diagnostics", "src/calculate_r2.cpp: Qsc::calculate_r2, Qsc::calculate_r2p1", "src/grad_B_tensor.cpp: Qsc::calculate_grad_B_tensor, Qsc::calculate_grad_grad_B_tensor", "src/mercier.cpp: Qsc::mercier", "src/r_singularity.cpp: Qsc::calculate_r_singularity"]}
{"id": "C103", "title": "Mirror images", "statement": "If two input files describe mirror images at the plane Z = 0 (Z0c, Z0s, sigma0, I2 and B2s have opposite signs, everything else is the same), both runs take the same Newton steps, and the output files describe mirror images: helicity, iota, iota_N, Z0 and its derivatives, mean_Z, torsion, sigma, Y1c, beta_1s, X2s, Y20, Y2c, Z2s, Y3c1, their derivatives and the inputs above have the opposite signs; an element of grad_B_tensor or grad_grad_B_tensor has the opposite sign if an odd number of its indices is the binormal; all other quantities to third order are the same, among them curvature, elongation, X1c, Y1s, X20, X2c, Y2s, B20, the scale lengths, the Mercier terms, X3c1 and Y3s1. If one of the runs ends, so does the other.", "quantifier": "all input files, all numbers of grid points and modes, all orders, all numbers of Newton steps; exact real arithmetic; a linear solver that follows signs of rows and columns; the normal vector does not change the sign of its first component next to a grid point where its Z component is exactly zero; the results of the search for singularities are left out", "why_tests_cant": "Compares two runs for all configurations, with and without stellarator symmetry: a wrong sign of torsion, I2, sigma, iota or of an asymmetric term in any formula breaks it.", "anchors": ["src/init_axis.cpp: Qsc::init_axis", "src/helicity.cpp: Qsc::calculate_helicity", "src/calculate_r1.cpp: Qsc::sigma_eq_residual, Qsc::sigma_eq_jacobian, Qsc::r1_diagnostics", "src/calculate_r2.cpp: Qsc::calculate_r2, Qsc::calculate_r2p1", "src/grad_B_tensor.cpp: Qsc::calculate_grad_B_tensor, Qsc::calculate_grad_grad_B_tensor", "src/mercier.cpp: Qsc::mercier"]}
{"id": "C104", "title": "The axis moved, or given by other coefficients", "statement": "If two input files differ only in the coefficients of the axis such that the second axis is the first one moved by h in the direction of Z (modes of amplitude zero may be added or removed at the end of the arrays, the coefficients R0s[0] and Z0s[0] may be anything, Z0c[0] differs by h), both runs take the same Newton steps and write the same file except for the four arrays of coefficients, Z0 and mean_Z; the last two differ by h. Everything else to third order is the same, among it the helicity, standard_deviation_of_Z and the results of the search for singularities. If one of the runs ends, so does the other.", "quantifier": "all input files, all h, all numbers of modes in both files, all numbers of grid points, all orders, all numbers of Newton steps, all linear solvers and eigenvalue routines; exact real arithmetic; if h is not zero, the axis has R other than zero at phi = 0", "why_tests_cant": "Compares two runs for all configurations: a loop over the modes that starts or ends at the wrong mode, or a formula that uses Z itself where only its derivatives may occur, breaks it; in a test with fixed numbers it cannot be told from a different configuration.", "anchors": ["src/init_axis.cpp: Qsc::init_axis", "src/qsc_input.cpp: Qsc::input", "src/calculate_r1.cpp: Qsc::sigma_eq_residual", "src/calculate_r2.cpp: Qsc::calculate_r2, Qsc::calculate_r2p1"]}
{"id": "C105", "title": "Runs of different orders", "statement": "If two input files ask for the same configuration, the second one up to the same or a lower order (r1, r2, r2.1), both runs take the same Newton steps, and everything that the second output file contains is the same in the first one, except for the flags and the text that tell the order: a higher order only adds variables. At order r1 the values of p2, B2c and B2s make no difference. Order r2.1 changes nothing of second order, in particular not the results of the search for singularities. If the first run ends, so does the second.", "quantifier": "all input files, all pairs of orders, all numbers of grid points and modes, all numbers of Newton steps, all linear solvers and eigenvalue routines; exact real arithmetic", "why_tests_cant": "Compares two runs for all configurations: a result of lower order that is overwritten or used differently at higher order may change a stored number by too little for the tolerance of a test.", "anchors": ["src/qsc.cpp: Qsc::calculate", "src/validate.cpp: Qsc::validate", "src/calculate_r2.cpp: Qsc::calculate_r2, Qsc::calculate_r2p1", "src/qsc_write_netcdf.cpp: Qsc::write_netcdf"]}
{"id": "C106", "title": "An optimization with the opposite field", "statement": "If two input files have the same section [opt] and describe configurations with opposite fields (sG, spsi and I2 have opposite signs), then at every configuration that the optimizer asks for, the residuals made from grad_B and grad_grad_B have the opposite signs and all other residuals and the objective are the same, so the sums of products that the least-squares library forms are the same. If the library takes the same steps in both optimizations, one of them ends if and only if the other does, both end at the same parameters, and the output files tell the same history: the same numbers of iterations and evaluations, weights, targets, objectives, terms, parameters and recorded results in every column. The final configurations in the two files are the same except that sG, spsi, I2, G0, G2, grad_B_tensor and grad_grad_B_tensor have the opposite signs.", "quantifier": "all pairs of such input files, all configurations, all numbers of steps, iterations, evaluations, grid points and modes, all behaviours of the least-squares library, all linear solvers and eigenvalue routines; exact real arithmetic", "why_tests_cant": "Compares two whole optimizations for all inputs and all behaviours of the library; a residual that depends on the sign of the field shows only if its weight is set and the field is reversed.", "anchors": ["src/opt.cpp: Opt::run", "src/optimize.cpp: Opt::optimize, Opt::set_residuals, Opt::unpack_state_vector", "src/opt_write_netcdf.cpp: Opt::write_netcdf", "src/qsc.cpp: Qsc::calculate"]}
{"id": "C107", "title": "A random scan with the opposite field", "statement": "If two input files have the same section [scan] and describe configurations with opposite fields (sG, spsi and I2 have opposite signs), and the random numbers and clocks are the same, then the two scans go through the same attempts with the same outcome on every process. One of them can end if and only if the other can, and what they write at every checkpoint and at the end has the same dimensions and variables with the same contents, except that sG, spsi and I2 have the opposite signs: the same configurations are kept with the same results, and the same numbers of attempts are rejected for the same reasons.", "quantifier": "all pairs of such input files, all numbers of processes, all sequences of random numbers, all clocks and checkpoints, all orders, all numbers of grid points, modes and attempts, all linear solvers and eigenvalue routines; exact real arithmetic", "why_tests_cant": "Compares two whole scans for all inputs and all sequences of random numbers; a filter or a stored result that depends on the sign of the field shows only if the field is reversed, which no test of scans does.", "anchors": ["src/scan_random.cpp: Scan::random", "src/scan_collect_results.cpp: Scan::collect_results", "src/scan_write_netcdf.cpp: Scan::write_netcdf", "src/qsc.cpp: Qsc::calculate"]}
{"id": "C108", "title": "A scan of multi-stage optimizations with the opposite field", "statement": "If two input files have the same sections [multiopt], [opt0], [opt1], ... and [multiopt_scan] and describe configurations with opposite fields (sG, spsi and I2 have opposite signs), and the least-squares library takes the same steps in both, then every grid point has the same outcome: the same number of evaluations, the same parameters at the end of the last stage and the same packed results. One of the scans can end if and only if the other can, on the same number of processes and with the same order of messages, and what they write at every checkpoint and at the end has the same dimensions and variables with the same contents, except that sG, spsi and I2 have the opposite signs.", "quantifier": "all pairs of such input files, all numbers of workers, all orders of messages, all grids, stages and checkpoints, all behaviours of the least-squares library, all linear solvers and eigenvalue routines; exact real arithmetic", "why_tests_cant": "Compares two whole scans for all inputs, all schedules and all behaviours of the library; a packed result or filter that depends on the sign of the field shows only if the field is reversed, which no test of these scans does.", "anchors": ["src/multiopt_scan.cpp: MultiOptScan::run, MultiOptScan::scan, MultiOptScan::eval_scan_index", "src/multiopt_scan_write_netcdf.cpp: MultiOptScan::write_netcdf", "src/multiopt.cpp: MultiOpt::optimize", "src/optimize.cpp: Opt::optimize"]}
{"id": "C109", "title": "A multi-stage optimization with the opposite field", "statement": "If two input files have the same sections [multiopt], [opt0], [opt1], ... and describe configurations with opposite fields (sG, spsi and I2 have opposite signs), and the least-squares library takes the same steps in both, then one of the multi-stage optimizations ends if and only if the other does, with the same total number of evaluations. They write as many files with the same names; every stage ends at the same parameters and on the same grid, and the two files of a stage tell the same history: the same numbers of iterations and evaluations, weights, targets, objectives, terms, parameters and recorded results in every column. The final configurations in the two files are the same except that sG, spsi, I2, G0, G2, grad_B_tensor and grad_grad_B_tensor have the opposite signs.", "quantifier": "all pairs of such input files, all numbers of stages, steps, iterations, evaluations, grid points and modes, all behaviours of the least-squares library, all linear solvers and eigenvalue routines; exact real arithmetic", "why_tests_cant": "Compares two whole optimizations of any number of stages for all inputs and all behaviours of the library; a stage that does not take over the direction of the field from the stage before it gives a plausible result, and no test of optimizations reverses the field.", "anchors": ["src/multiopt.cpp: MultiOpt::run, MultiOpt::optimize, MultiOpt::write_netcdf", "src/opt.cpp: Opt::run", "src/optimize.cpp: Opt::optimize, Opt::set_residuals", "src/opt_write_netcdf.cpp: Opt::write_netcdf"]}
{"id": "C110", "title": "The whole program with the opposite field", "statement": "If two input files differ in the section [qsc] only, and there describe configurations with opposite fields (sG, spsi and I2 have opposite signs), then for every value of general_option the program can end for one of them if and only if it can for the other, with the same return value. It writes as many files with the same names in the same order. For a single configuration, an optimization and a multi-stage optimization the two files are the same except that sG, spsi, I2, G0, G2, grad_B_tensor and grad_grad_B_tensor have the opposite signs, and those of optimizations tell the same history; for both kinds of scans they are the same except for the signs of sG, spsi and I2.", "quantifier": "all pairs of such input files, all five calculations, all command lines, all numbers of processes, all random numbers, clocks and schedules, all behaviours of the least-squares library, all linear solvers and eigenvalue routines; exact real arithmetic", "why_tests_cant": "Compares two calls of the whole program, reading of the input files included, for all inputs; a section that is read differently depending on another one, or a result that depends on the direction of the field, shows only if the field is reversed.", "anchors": ["src/driver.cpp: qsc::driver", "src/qsc_input.cpp: Qsc::input", "src/opt_input.cpp: Opt::input", "src/scan_input.cpp: Scan::input", "src/multiopt.cpp: MultiOpt::input", "src/multiopt_scan_input.cpp: MultiOptScan::input"]}
{"id": "C111", "title": "What the memory contained before does not matter", "statement": "For every value of general_option: with the same input file, the same answers of the libraries, random numbers and clocks, and the same order of messages, the program can end in the same ways whatever the members of its objects contained before they were set: with the same return value and with the same names and contents of all files that a single configuration, an optimization, the stages of a multi-stage optimization, a random scan or a scan over a grid writes, at checkpoints and at the end. Every member that write_netcdf hands to the library, by value or by address, was set before, by the input file, by allocate or by a calculation; the only exception is q.d_phi in a random scan of which no attempt came to init_axis, which is kept the same here. An optimization and a multi-stage optimization also fail with the same error.", "quantifier": "all input files, all five calculations, all contents of memory, all numbers of stages, iterations, processes, grid points and modes, all orders, all behaviours of the least-squares library, all linear solvers and eigenvalue routines; optimizations over every field with arbitrary comparisons", "why_tests_cant": "A member that is written without being set shows only if the memory happens to contain something other than the expected number, mostly zero; a test sees one content of memory for the few input files that it runs.", "anchors": ["src/qsc_write_netcdf.cpp: Qsc::write_netcdf", "src/opt_write_netcdf.cpp: Opt::write_netcdf", "src/multiopt.cpp: MultiOpt::write_netcdf", "src/scan_write_netcdf.cpp: Scan::write_netcdf", "src/multiopt_scan_write_netcdf.cpp: MultiOptScan::write_netcdf", "src/driver.cpp: qsc::driver"]}
