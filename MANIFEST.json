{
 "claims": [
  {
   "property": "C01",
   "status": "proved",
   "theorems": [
    "Qsc.Helicity.helicity_never_throws"
   ],
   "note": ""
  },
  {
   "property": "C02",
   "status": "proved",
   "theorems": [
    "Qsc.Helicity.helicity_eq_winding",
    "Qsc.Helicity.helicity_shift",
    "Qsc.Helicity.helicity_reverse"
   ],
   "note": "Winding number defined by axis crossings of the sampled normal (Spec/Helicity)."
  },
  {
   "property": "C03",
   "status": "proved",
   "theorems": [
    "Qsc.Outfile.outfile_ok",
    "Qsc.Outfile.outfile_error_iff",
    "Qsc.Outfile.outfile_total",
    "Qsc.Outfile.outfile_injective"
   ],
   "note": ""
  },
  {
   "property": "C04",
   "status": "proved",
   "theorems": [
    "Qsc.Toml.qscInput_ok_iff",
    "Qsc.Toml.qscInput_unknown_key",
    "Qsc.Toml.qscInput_error_reason",
    "Qsc.Toml.qscInput_accepts"
   ],
   "note": "Section [qsc]."
  },
  {
   "property": "C05",
   "status": "proved",
   "theorems": [
    "Qsc.Toml.padAll_spec",
    "Qsc.Toml.padAll_idem",
    "Qsc.Toml.qscInput_ok_iff"
   ],
   "note": ""
  },
  {
   "property": "C06",
   "status": "proved",
   "theorems": [
    "Qsc.VecMat.matrix_layout",
    "Qsc.VecMat.rank3_layout",
    "Qsc.VecMat.rank4_layout",
    "Qsc.VecMat.resize_spec",
    "Qsc.VecMat.matrix_set_get",
    "Qsc.VecMat.rank3_set_get",
    "Qsc.VecMat.rank4_set_get",
    "Qsc.VecMat.rank3_setRow",
    "Qsc.VecMat.rank4_setRow",
    "Qsc.VecMat.matrix_row_overflow_aliases",
    "Qsc.VecMat.matrixVectorProduct_spec",
    "Qsc.VecMat.dotProduct_spec"
   ],
   "note": "Layout, independence of distinct elements, aliasing of out-of-range rows."
  },
  {
   "property": "C07",
   "status": "proved",
   "theorems": [
    "Qsc.VecMat.assign_get",
    "Qsc.VecMat.assign_faithful_iff",
    "Qsc.VecMat.assign_not_faithful",
    "Qsc.VecMat.assign_allocated_iff",
    "Qsc.VecMat.assign_after_resize"
   ],
   "note": "The expectation (assignment copies a matrix) is false; exact condition and witness proved."
  },
  {
   "property": "C08",
   "status": "proved",
   "theorems": [
    "Qsc.Random.construct_ok_iff",
    "Qsc.Random.construct_swap",
    "Qsc.Random.construct_unknown_iff"
   ],
   "note": "Exact real arithmetic."
  },
  {
   "property": "C09",
   "status": "proved",
   "theorems": [
    "Qsc.Random.get_in_range",
    "Qsc.Random.swap_mirrors",
    "Qsc.Random.swap_has_effect"
   ],
   "note": "Exact real arithmetic; swap_* record a disagreement with the comment in random.cpp."
  },
  {
   "property": "C10",
   "status": "proved",
   "theorems": [
    "Qsc.Random.seek_eq_draws",
    "Qsc.Random.nth_value",
    "Qsc.Random.seek_draw_add",
    "Qsc.Random.sequence_injective",
    "Qsc.Random.degenerate_never_advances",
    "Qsc.Random.setToNth_nondeterministic"
   ],
   "note": "Exact real arithmetic."
  },
  {
   "property": "C100",
   "status": "proved",
   "theorems": [
    "Qsc.Scaling.same_in_units",
    "Qsc.Scaling.ends_in_units"
   ],
   "note": "At second order with a different unit of length the linear solver has to be homogeneous (and for ends_in_units the eigenvalue routine must not fail). r_singularity_robust, beta and r_hat_singularity_robust are covered only if the unit of length is the same: the search compares with absolute tolerances and the constant 1e30. X1s is not in the file."
  },
  {
   "property": "C101",
   "status": "proved",
   "theorems": [
    "Qsc.Reversal.same_opposite",
    "Qsc.Reversal.ends_opposite"
   ],
   "note": "Exact real arithmetic; no assumption about the linear solver or the eigenvalue routine, except that equal inputs give equal answers."
  },
  {
   "property": "C102",
   "status": "proved",
   "theorems": [
    "Qsc.HalfTurn.same_turned",
    "Qsc.HalfTurn.ends_turned"
   ],
   "note": "Exact real arithmetic; at second order the linear solver has to give the same answer if the matrix and the right-hand side both change sign."
  },
  {
   "property": "C103",
   "status": "proved",
   "theorems": [
    "Qsc.Mirror.same_mirrored",
    "Qsc.Mirror.ends_mirrored"
   ],
   "note": "Exact real arithmetic; the linear solver has to follow signs of rows and columns, as an exact one does (Qsc.ExactSolve.assumptions_met); the normal vector must not cross between quadrants at a grid point where its Z component is exactly zero; the results of the search for singularities are left out."
  },
  {
   "property": "C104",
   "status": "proved",
   "theorems": [
    "Qsc.Shift.same_moved",
    "Qsc.Shift.ends_moved"
   ],
   "note": "Exact real arithmetic; no assumption on the linear solver."
  },
  {
   "property": "C105",
   "status": "proved",
   "theorems": [
    "Qsc.Nested.contains_lower",
    "Qsc.Nested.ends_lower"
   ],
   "note": "Exact real arithmetic; no assumption on the linear solver."
  },
  {
   "property": "C106",
   "status": "proved",
   "theorems": [
    "Qsc.OptReversal.opt_opposite",
    "Qsc.OptReversal.ends_iff",
    "Qsc.OptReversal.residual_signs"
   ],
   "note": "Exact real arithmetic. The least-squares library is a script of the points it evaluates and accepts, the same in both optimizations; residual_signs says that the library sees the same residuals up to fixed signs."
  },
  {
   "property": "C107",
   "status": "proved",
   "theorems": [
    "Qsc.ScanReversal.scan_opposite",
    "Qsc.ScanReversal.scan_opposite_iff"
   ],
   "note": "Exact real arithmetic; no assumption on the linear solver. Messages between processes are those of C90."
  },
  {
   "property": "C108",
   "status": "proved",
   "theorems": [
    "Qsc.GridReversal.grid_opposite",
    "Qsc.GridReversal.grid_opposite_iff"
   ],
   "note": "Exact real arithmetic. The least-squares library is a script of the points it evaluates and accepts, the same in both scans, as in C106. Stages without an iteration are outside the model (Err.idle)."
  },
  {
   "property": "C109",
   "status": "proved",
   "theorems": [
    "Qsc.StagesReversal.stages_opposite",
    "Qsc.StagesReversal.stages_ends_iff"
   ],
   "note": "Exact real arithmetic. The least-squares library is a script of the points it evaluates and accepts, the same in both optimizations, as in C106."
  },
  {
   "property": "C11",
   "status": "proved",
   "theorems": [
    "Qsc.Scan.scan_bookkeeping"
   ],
   "note": ""
  },
  {
   "property": "C110",
   "status": "proved",
   "theorems": [
    "Qsc.ProgramReversal.program_opposite",
    "Qsc.ProgramReversal.program_ends_iff"
   ],
   "note": "Exact real arithmetic. All calculations use the same numerical libraries; the least-squares library takes the same steps for both files, as in C106. Stages without an iteration are outside the model (Err.idle)."
  },
  {
   "property": "C111",
   "status": "proved",
   "theorems": [
    "Qsc.OptMemory.opt_memory",
    "Qsc.OptMemory.stages_memory",
    "Qsc.ScanMemory.scan_memory",
    "Qsc.ScanMemory.grid_memory",
    "Qsc.ScanMemory.program_memory"
   ],
   "note": "Scans and the whole program in exact real arithmetic. Not part of this memory, and kept the same: the flags of the order that Opt::allocate reads before they are set (C52; the model uses the flags that validate set), q.d_phi of a random scan of which no attempt came to init_axis (World.junk; the code writes it unset), the parameters of a candidate before the first attempt (World.c0), and columns of the local arrays of a random scan in which nothing was kept (World.junkColumn)."
  },
  {
   "property": "C12",
   "status": "proved",
   "theorems": [
    "Qsc.Scan.scan_saves_exactly",
    "Qsc.Scan.passes_iff",
    "Qsc.Scan.r0At0_exact",
    "Qsc.Scan.r0AtHalfPeriod_exact"
   ],
   "note": ""
  },
  {
   "property": "C13",
   "status": "proved",
   "theorems": [
    "Qsc.Scan.nan_candidate_passes",
    "Qsc.Scan.nan_is_saved"
   ],
   "note": "The expectation is false: witness proved."
  },
  {
   "property": "C14",
   "status": "proved",
   "theorems": [
    "Qsc.Scan.scan_within_limits",
    "Qsc.Scan.scan_stops_iff",
    "Qsc.Scan.scan_stopped_is_final",
    "Qsc.Scan.scan_time_limit",
    "Qsc.Scan.scan_max_keep_zero"
   ],
   "note": "Clock answers are arbitrary Booleans supplied by the environment."
  },
  {
   "property": "C15",
   "status": "proved",
   "theorems": [
    "Qsc.ScanDraws.deterministic_split",
    "Qsc.ScanDraws.start_ok_iff",
    "Qsc.ScanDraws.deterministic_results",
    "Qsc.ScanDraws.deterministic_no_limit"
   ],
   "note": "Exact real arithmetic; int overflow of rank*attempts not modelled."
  },
  {
   "property": "C16",
   "status": "proved",
   "theorems": [
    "Qsc.Collect.collect_all_schedules",
    "Qsc.Collect.gathered_configurations",
    "Qsc.Collect.gathered_from_loop",
    "Qsc.Collect.named_output"
   ],
   "note": ""
  },
  {
   "property": "C17",
   "status": "proved",
   "theorems": [
    "Qsc.Collect.collect_all_schedules",
    "Qsc.Collect.collect_mismatch_never_returns",
    "Qsc.Collect.checkpoint_counts_can_differ"
   ],
   "note": "The expectation is false when ranks reach different numbers of checkpoints: proved."
  },
  {
   "property": "C18",
   "status": "proved",
   "theorems": [
    "Qsc.ScanGrid.decode_spec",
    "Qsc.ScanGrid.decode_unique"
   ],
   "note": "Machine integer overflow of the product not modelled."
  },
  {
   "property": "C19",
   "status": "proved",
   "theorems": [
    "Qsc.ScanGrid.linear_grid",
    "Qsc.ScanGrid.log_grid",
    "Qsc.ScanGrid.grid_monotone",
    "Qsc.ScanGrid.init_ok_iff"
   ],
   "note": "Exact real arithmetic."
  },
  {
   "property": "C20",
   "status": "proved",
   "theorems": [
    "Qsc.MultiScan.each_index_once",
    "Qsc.MultiScan.guards"
   ],
   "note": "All schedules, any buffering, any 1 <= workers <= n. Assumes evaluations return and that axis arrays have the sizes of Spec.MultiScan.Sized."
  },
  {
   "property": "C21",
   "status": "proved",
   "theorems": [
    "Qsc.MultiScan.bounded_work",
    "Qsc.MultiScan.no_deadlock",
    "Qsc.MultiScan.can_finish",
    "Qsc.MultiScan.schedule_independent",
    "Qsc.MultiScan.synchronous_deadlock"
   ],
   "note": "Deadlock freedom if the sends of process 0 or the sends of the workers are buffered; with purely synchronous sends a deadlock is exhibited. The floating point sum of run times (total_cpu_seconds) is schedule dependent and left out."
  },
  {
   "property": "C22",
   "status": "proved",
   "theorems": [
    "Qsc.MultiScan.counters",
    "Qsc.MultiScan.never_fails",
    "Qsc.MultiScan.saved_in_order"
   ],
   "note": "Counters, no exception or out-of-bounds access in any reachable state, checkpoints."
  },
  {
   "property": "C23",
   "status": "proved",
   "theorems": [
    "Qsc.MultiScan.saved_in_order",
    "Qsc.MultiScan.saved_scalar",
    "Qsc.MultiScan.saved_mode",
    "Qsc.MultiScan.saved_ints",
    "Qsc.MultiScan.meaning_complete"
   ],
   "note": "57 scalars, 8 Fourier blocks for any number of modes, against a separately written table of meanings."
  },
  {
   "property": "C24",
   "status": "proved",
   "theorems": [
    "Qsc.ScanParams.param_exact",
    "Qsc.ScanParams.param_ok_iff",
    "Qsc.ScanParams.param_unknown_throws",
    "Qsc.ScanParams.param_late_throws",
    "Qsc.ScanParams.param_all_stages_throws",
    "Qsc.ScanParams.all_exact",
    "Qsc.ScanParams.out_of_bounds"
   ],
   "note": "Includes the witness that a mode number beyond the input arrays, or a stage that does not exist, writes out of bounds."
  },
  {
   "property": "C25",
   "status": "proved",
   "theorems": [
    "Qsc.Newton.converged_correct",
    "Qsc.Newton.norm_not_increased"
   ],
   "note": "Norms in any linear order for the monotonicity; control flow with uninterpreted comparisons otherwise."
  },
  {
   "property": "C26",
   "status": "proved",
   "theorems": [
    "Qsc.Newton.converged_correct",
    "Qsc.Newton.failed_residual"
   ],
   "note": "The documented post-condition fails on a line search failure: proved, with a concrete run."
  },
  {
   "property": "C27",
   "status": "proved",
   "theorems": [
    "Qsc.Newton.bounded_work"
   ],
   "note": ""
  },
  {
   "property": "C28",
   "status": "proved",
   "theorems": [
    "Qsc.OptState.names_layout",
    "Qsc.OptState.layout_determined",
    "Qsc.OptState.set_values",
    "Qsc.OptState.unpack_values",
    "Qsc.OptState.pack_unpack",
    "Qsc.OptState.unpack_pack",
    "Qsc.OptState.unpack_injective"
   ],
   "note": ""
  },
  {
   "property": "C29",
   "status": "proved",
   "theorems": [
    "Qsc.OptResid.names_entries",
    "Qsc.OptResid.entries_determined",
    "Qsc.OptResid.refused_iff",
    "Qsc.OptResid.residual_entries"
   ],
   "note": ""
  },
  {
   "property": "C30",
   "status": "proved",
   "theorems": [
    "Qsc.OptResid.objective_half",
    "Qsc.OptResid.bounds_one_sided",
    "Qsc.OptResid.target_zero_iff",
    "Qsc.OptResid.fractions_sum"
   ],
   "note": "Exact arithmetic."
  },
  {
   "property": "C31",
   "status": "proved",
   "theorems": [
    "Qsc.OptLoop.history",
    "Qsc.OptLoop.sizes_checked",
    "Qsc.OptLoop.unequal_undefined"
   ],
   "note": "The least-squares library is an arbitrary script inside the driver loop of GSL; fourier_refine and max_iter nonnegative."
  },
  {
   "property": "C32",
   "status": "proved",
   "theorems": [
    "Qsc.OptLoop.refinement"
   ],
   "note": ""
  },
  {
   "property": "C33",
   "status": "proved",
   "theorems": [
    "Qsc.OptLoop.stages",
    "Qsc.OptLoop.stage_sizes",
    "Qsc.Outfile.stageOutfile_ok",
    "Qsc.Outfile.stageOutfile_injective"
   ],
   "note": ""
  },
  {
   "property": "C34",
   "status": "proved",
   "theorems": [
    "Qsc.Setup.validate_spec"
   ],
   "note": ""
  },
  {
   "property": "C35",
   "status": "proved",
   "theorems": [
    "Qsc.Setup.odd_spec",
    "Qsc.Setup.allocate_idempotent",
    "Qsc.Setup.allocate_dims",
    "Qsc.Setup.init_dims",
    "Qsc.Setup.init_dims_opt"
   ],
   "note": "Non-negative resolutions."
  },
  {
   "property": "C36",
   "status": "proved",
   "theorems": [
    "Qsc.Setup.driver_spec",
    "Qsc.Setup.documented_scan_throws"
   ],
   "note": ""
  },
  {
   "property": "C37",
   "status": "proved",
   "theorems": [
    "Qsc.DiffMat.antisymmetric_circulant",
    "Qsc.DiffMat.off_diagonal"
   ],
   "note": "Exact real arithmetic; the model of the C++ loops builds the matrix entry by entry and any out-of-range access would give none."
  },
  {
   "property": "C38",
   "status": "proved",
   "theorems": [
    "Qsc.DiffMat.exact_on_trigPoly",
    "Qsc.DiffMat.unresolved_mode"
   ],
   "note": "Exact real arithmetic; derivative in the sense of HasDerivAt.  unresolved_mode shows that the bound on the wave number is needed."
  },
  {
   "property": "C39",
   "status": "proved",
   "theorems": [
    "Qsc.Axis.init_ok",
    "Qsc.Axis.grid",
    "Qsc.Axis.derivatives",
    "Qsc.Axis.curve_derivatives",
    "Qsc.Axis.frenet",
    "Qsc.Axis.curvature_regular",
    "Qsc.Axis.d2l_eq",
    "Qsc.Axis.orthonormal",
    "Qsc.Axis.frenet_serret",
    "Qsc.Axis.helicity_eq"
   ],
   "note": "Exact real arithmetic; int overflow in the products of mode numbers is not modelled."
  },
  {
   "property": "C40",
   "status": "proved",
   "theorems": [
    "Qsc.Axis.boozer_steps",
    "Qsc.Axis.boozer_increasing",
    "Qsc.Axis.boozer_closes",
    "Qsc.Axis.varphi_derivative"
   ],
   "note": "Exact real arithmetic."
  },
  {
   "property": "C41",
   "status": "proved",
   "theorems": [
    "Qsc.R1.residual_meaning",
    "Qsc.R1.jacobian_exact",
    "Qsc.R1.jacobian_derivative",
    "Qsc.R1.full_step"
   ],
   "note": "Exact real arithmetic."
  },
  {
   "property": "C42",
   "status": "proved",
   "theorems": [
    "Qsc.R1.area",
    "Qsc.R1.elongation_ratio",
    "Qsc.R1.elongation_relation",
    "Qsc.R1.elongation_bounds",
    "Qsc.R1.after_init_axis"
   ],
   "note": "Exact real arithmetic; elongation is also shown to be the ratio of the largest to the smallest distance from the axis."
  },
  {
   "property": "C43",
   "status": "proved",
   "theorems": [
    "Qsc.R2.system_iff",
    "Qsc.R2.area_relations",
    "Qsc.R2.ok_after_init_axis"
   ],
   "note": "Equivalence between the assembled system and the two second-order equations at every grid point, for any previous content of the matrix. Exact reals."
  },
  {
   "property": "C44",
   "status": "proved",
   "theorems": [
    "Qsc.R2.b20_mean",
    "Qsc.R2.b20_variation",
    "Qsc.R2.grid_maxima",
    "Qsc.R2.grid_maxima_third"
   ],
   "note": "Exact reals, positive weights."
  },
  {
   "property": "C45",
   "status": "proved",
   "theorems": [
    "Qsc.R2.mercier_geod",
    "Qsc.R2.mercier_well",
    "Qsc.R2.mercier_signs",
    "Qsc.R2.volume_second_derivative",
    "Qsc.R2.mercier_integral"
   ],
   "note": "Also identifies each term with the flux-surface integrals of the Mercier criterion at leading order (Poisson integral for the poloidal average), and d2_volume_d_psi2 with the expansion of the volume derivative. Exact reals."
  },
  {
   "property": "C46",
   "status": "proved",
   "theorems": [
    "Qsc.Quartic.charpoly",
    "Qsc.Quartic.charpoly_complex",
    "Qsc.Quartic.eigenvalue_iff_root",
    "Qsc.Quartic.roots_exact",
    "Qsc.Quartic.real_roots",
    "Qsc.Quartic.roots_error"
   ],
   "note": "The eigenvalue routine is an environment; its exactness is a hypothesis only where roots are claimed."
  },
  {
   "property": "C47",
   "status": "proved",
   "theorems": [
    "Qsc.RSing.angle_equation",
    "Qsc.RSing.quartic_root",
    "Qsc.RSing.reported_sound",
    "Qsc.RSing.reported_le",
    "Qsc.RSing.reported_least",
    "Qsc.RSing.missed_scaling",
    "Qsc.RSing.missed_mirror",
    "Qsc.RSing.missed_linear",
    "Qsc.RSing.least_false",
    "Qsc.RSing.calculate_spec",
    "Qsc.RSing.calculate_returns"
   ],
   "note": "Exact real arithmetic; the places where the code divides by zero or takes the root of a negative number are explicit."
  },
  {
   "property": "C48",
   "status": "proved",
   "theorems": [
    "Qsc.R1.trace_eq",
    "Qsc.R1.curl_eq",
    "Qsc.R1.curl_perp",
    "Qsc.R1.maxwell",
    "Qsc.R1.product_rule",
    "Qsc.R1.length_scale",
    "Qsc.R1.length_scale_min"
   ],
   "note": "Exact real arithmetic. A spectral matrix obeys the product rule only for resolved products, so trace and curl are given exactly with the product rule error, and vanish when it does."
  },
  {
   "property": "C49",
   "status": "proved",
   "theorems": [
    "Qsc.Setup.named_spec",
    "Qsc.Setup.named_alias"
   ],
   "note": "Numbers as exact rationals; the calculation that follows init is not part of this claim."
  },
  {
   "property": "C50",
   "status": "proved",
   "theorems": [
    "Qsc.Netcdf.run_contents",
    "Qsc.Netcdf.dims_shared",
    "Qsc.Netcdf.string_dims",
    "Qsc.Netcdf.run_ok",
    "Qsc.Netcdf.strDim_injective"
   ],
   "note": "The netCDF library is an environment given by its documented rules; the object is unchanged between put and close; rounding of numbers when stored and the conversion of unsigned long long to double are an uninterpreted function."
  },
  {
   "property": "C51",
   "status": "proved",
   "theorems": [
    "Qsc.Newton.seen_state"
   ],
   "note": ""
  },
  {
   "property": "C52",
   "status": "proved",
   "theorems": [
    "Qsc.Setup.flags_set",
    "Qsc.Setup.opt_reads_unset",
    "Qsc.Setup.opt_recovers"
   ],
   "note": "The expectation is false for optimizations: proved."
  },
  {
   "property": "C53",
   "status": "proved",
   "theorems": [
    "Qsc.OptLoop.ends_at_last_record",
    "Qsc.OptLoop.rejected_trial_kept"
   ],
   "note": "The expectation is false without progress: witness proved."
  },
  {
   "property": "C54",
   "status": "proved",
   "theorems": [
    "Qsc.Newton.follows_rule",
    "Qsc.Newton.rule_iff"
   ],
   "note": ""
  },
  {
   "property": "C55",
   "status": "proved",
   "theorems": [
    "Qsc.OptLoop.evaluations"
   ],
   "note": ""
  },
  {
   "property": "C56",
   "status": "proved",
   "theorems": [
    "Qsc.Axis.extrema",
    "Qsc.Axis.averages",
    "Qsc.Axis.average_bounds",
    "Qsc.Axis.short_array_undefined",
    "Qsc.Axis.extra_modes_ignored"
   ],
   "note": "Exact real arithmetic."
  },
  {
   "property": "C57",
   "status": "proved",
   "theorems": [
    "Qsc.R1.solve_spec"
   ],
   "note": ""
  },
  {
   "property": "C58",
   "status": "proved",
   "theorems": [
    "Qsc.R2.field_agrees",
    "Qsc.R2.field_strength",
    "Qsc.R2.force_balance",
    "Qsc.R2.ok_after_init_axis"
   ],
   "note": "Hypotheses: exact linear solve, sigma equation at the grid point, product rule for the first-order profiles (a spectral matrix obeys it only up to truncation error)."
  },
  {
   "property": "C59",
   "status": "proved",
   "theorems": [
    "Qsc.R2.third_order",
    "Qsc.R2.third_order_shape"
   ],
   "note": "Same hypotheses as C58 without the linear solve."
  },
  {
   "property": "C60",
   "status": "proved",
   "theorems": [
    "Qsc.RSing.jacobian_expansion",
    "Qsc.RSing.first_coefficients"
   ],
   "note": "Exact real arithmetic."
  },
  {
   "property": "C61",
   "status": "proved",
   "theorems": [
    "Qsc.Output.round_trip",
    "Qsc.Output.allocate_members"
   ],
   "note": "The netCDF library is an environment given by its documented rules; storing and loading a number is exact; descriptions and units are left out. read_netcdf only for files of the C++ version."
  },
  {
   "property": "C62",
   "status": "proved",
   "theorems": [
    "Qsc.Output.qsc_written",
    "Qsc.Output.scan_written",
    "Qsc.Output.multiopt_written"
   ],
   "note": "As C61; n_scan is taken to fit an int."
  },
  {
   "property": "C63",
   "status": "partial",
   "theorems": [
    "Qsc.Output.opt_written_partial",
    "Qsc.Output.opt_false"
   ],
   "note": "False of the code for one array: the variable iter_curvature_term is filled from iter_elongation_term. opt_false is a witness, opt_written_partial proves the statement for all other arrays."
  },
  {
   "property": "C64",
   "status": "proved",
   "theorems": [
    "Qsc.GradGradB.first_derivative",
    "Qsc.GradGradB.ready_after_init_axis"
   ],
   "note": "Exact real arithmetic; the product rule for X1c Y1s at the grid point is a hypothesis (a spectral matrix obeys it up to truncation error)."
  },
  {
   "property": "C65",
   "status": "proved",
   "theorems": [
    "Qsc.GradGradB.second_derivative",
    "Qsc.GradGradB.second_derivative_unique",
    "Qsc.GradGradB.symmetric",
    "Qsc.GradGradB.along_axis",
    "Qsc.GradGradB.ready_after_init_axis"
   ],
   "note": "Exact real arithmetic; smoothness along the axis is given by functions with the values and derivatives of the grid profiles at one point."
  },
  {
   "property": "C66",
   "status": "proved",
   "theorems": [
    "Qsc.GradGradB.alternative"
   ],
   "note": "Exact real arithmetic."
  },
  {
   "property": "C67",
   "status": "proved",
   "theorems": [
    "Qsc.GradGradB.length_scale",
    "Qsc.GradGradB.length_scale_min",
    "Qsc.GradGradB.wire_scale"
   ],
   "note": "Exact real arithmetic; B0 > 0 is needed because the code divides B0 without absolute value."
  },
  {
   "property": "C68",
   "status": "proved",
   "theorems": [
    "Qsc.GradGradB.divergence",
    "Qsc.GradGradB.curl_current",
    "Qsc.GradGradB.curl_along",
    "Qsc.GradGradB.vacuum_symmetric"
   ],
   "note": "Exact real arithmetic; exact linear solve and smooth profiles as hypotheses."
  },
  {
   "property": "C69",
   "status": "proved",
   "theorems": [
    "Qsc.Sections.scanInput_iff",
    "Qsc.Sections.scanInput_ready"
   ],
   "note": "A file is its sections after parsing; keys are unique (toml11); conversion of 64 bit to 32 bit integers is not modelled."
  },
  {
   "property": "C70",
   "status": "proved",
   "theorems": [
    "Qsc.Sections.optInput_iff",
    "Qsc.Sections.optInput_nphi",
    "Qsc.Sections.optInput_flags",
    "Qsc.Sections.optInput_no_axis"
   ],
   "note": "As C69."
  },
  {
   "property": "C71",
   "status": "proved",
   "theorems": [
    "Qsc.Sections.multioptInput_iff",
    "Qsc.Sections.multioptInput_no_nopts",
    "Qsc.Sections.stage_depends",
    "Qsc.Sections.stage_sections",
    "Qsc.Sections.groupName_injective"
   ],
   "note": "As C69."
  },
  {
   "property": "C72",
   "status": "proved",
   "theorems": [
    "Qsc.Sections.multiScanInput_iff",
    "Qsc.Sections.assertSizes_iff"
   ],
   "note": "As C69; asserts are taken to be compiled in."
  },
  {
   "property": "C73",
   "status": "proved",
   "theorems": [
    "Qsc.Pipeline.constructors_typed",
    "Qsc.Pipeline.initialised"
   ],
   "note": "Members with a key in the file; nopts has no default (C71)."
  },
  {
   "property": "C74",
   "status": "proved",
   "theorems": [
    "Qsc.Pipeline.optRun_fine",
    "Qsc.Pipeline.negative_refine",
    "Qsc.Pipeline.no_weight",
    "Qsc.Pipeline.no_weight_keys",
    "Qsc.Pipeline.terms_zero"
   ],
   "note": "The calculation of a configuration and the GSL library are environments with arbitrary answers; sizes that are negative and become huge unsigned numbers are the outcome outside, excluded by Natural."
  },
  {
   "property": "C75",
   "status": "proved",
   "theorems": [
    "Qsc.Pipeline.multioptRun_fine",
    "Qsc.Pipeline.runStages_safe",
    "Qsc.Pipeline.runStages_eq",
    "Qsc.Pipeline.same_start",
    "Qsc.Pipeline.default_flags_refused"
   ],
   "note": "As C74."
  },
  {
   "property": "C76",
   "status": "proved",
   "theorems": [
    "Qsc.ScanPipeline.scan_starts",
    "Qsc.ScanPipeline.startable_iff",
    "Qsc.ScanPipeline.steps_tries",
    "Qsc.ScanPipeline.scan_saved"
   ],
   "note": "Exact real arithmetic; the clock and the random streams are environments; the calculation of a configuration is an arbitrary function of the drawn inputs. A negative max_keep_per_proc, which becomes a huge size, is the outcome outside."
  },
  {
   "property": "C77",
   "status": "proved",
   "theorems": [
    "Qsc.ScanPipeline.scan_output",
    "Qsc.ScanPipeline.scan_output_bounds"
   ],
   "note": "As C76; the communication is that of C16/C17."
  },
  {
   "property": "C78",
   "status": "proved",
   "theorems": [
    "Qsc.MultiScanPipeline.scanned",
    "Qsc.MultiScanPipeline.init_iff",
    "Qsc.MultiScanPipeline.points_exact",
    "Qsc.MultiScanPipeline.stages_of_point"
   ],
   "note": "Exact real arithmetic; logarithmic grids need positive bounds (hypothesis Positive); overflow of n_scan_all not modelled."
  },
  {
   "property": "C79",
   "status": "proved",
   "theorems": [
    "Qsc.MultiScanPipeline.evaluation",
    "Qsc.MultiScanPipeline.no_iterations",
    "Qsc.MultiScanPipeline.cfgOf_file",
    "Qsc.MultiScanPipeline.scan_output",
    "Qsc.MultiScanPipeline.scan_final"
   ],
   "note": "The calculation of a configuration and the GSL library are environments with arbitrary answers; in scan_output all optimizations are assumed to end normally (an exception in a worker ends the program)."
  },
  {
   "property": "C80",
   "status": "proved",
   "theorems": [
    "Qsc.Single.ends_only",
    "Qsc.Single.ends",
    "Qsc.Single.refused",
    "Qsc.Single.better_library"
   ],
   "note": "Exact real arithmetic. The parser of toml11 and the netCDF library are environments that work (a parsed file, no I/O errors). An nfp that is zero or negative is not covered by refused (division by zero in floating point)."
  },
  {
   "property": "C81",
   "status": "proved",
   "theorems": [
    "Qsc.Single.output_settings",
    "Qsc.Single.output_axis",
    "Qsc.Single.output_unique"
   ],
   "note": "Exact real arithmetic; curvature and what follows from it need R0 != 0 at the grid points, torsion and helicity also curvature != 0."
  },
  {
   "property": "C82",
   "status": "proved",
   "theorems": [
    "Qsc.Single.output_first",
    "Qsc.Single.output_sigma"
   ],
   "note": "Exact real arithmetic; the Newton result is not written to the file and is taken from the run."
  },
  {
   "property": "C83",
   "status": "proved",
   "theorems": [
    "Qsc.Single.memory_irrelevant"
   ],
   "note": "For every field with arbitrary comparisons, so also for orders of evaluation that real arithmetic would hide."
  },
  {
   "property": "C84",
   "status": "proved",
   "theorems": [
    "Qsc.Single.output_second",
    "Qsc.Single.tables_unique"
   ],
   "note": "Exact real arithmetic. The agreement of both forms of the field needs an exact linear solver and, at the grid point, the product rule and the sigma equation (structure Exact); the tensor needs the product rule for X1c Y1s. The radius of singularity is that of the roots the code accepts: a zero of the Jacobian where the derivative is below the tolerance."
  },
  {
   "property": "C85",
   "status": "proved",
   "theorems": [
    "Qsc.DiffMat.even_antisymmetric",
    "Qsc.DiffMat.even_exact",
    "Qsc.DiffMat.even_error"
   ],
   "note": "Exact real arithmetic; tan(pi/2), which the code evaluates for even sizes, answers an arbitrary number. The code never calls the function with an even size for a calculation (C35); tests in the repository do."
  },
  {
   "property": "C86",
   "status": "proved",
   "theorems": [
    "Qsc.OptRun.final_in_file",
    "Qsc.OptRun.settings_in_file",
    "Qsc.OptRun.outcomes",
    "Qsc.OptRun.evaluation",
    "Qsc.OptRun.describable"
   ],
   "note": "Exact real arithmetic. That the file has the parameters of the last record is conditional on GSL reporting progress in the first iteration of each step (otherwise C53: a rejected trial stays). nfp of zero or below is outside the model."
  },
  {
   "property": "C87",
   "status": "proved",
   "theorems": [
    "Qsc.OptRun.history_in_file",
    "Qsc.OptRun.describable"
   ],
   "note": "Exact real arithmetic. iter_curvature_term holds the elongation term (C63)."
  },
  {
   "property": "C88",
   "status": "proved",
   "theorems": [
    "Qsc.OptRun.outcomes",
    "Qsc.OptRun.completes"
   ],
   "note": "Exact real arithmetic."
  },
  {
   "property": "C89",
   "status": "proved",
   "theorems": [
    "Qsc.ScanRun.scan_file",
    "Qsc.ScanRun.calculable"
   ],
   "note": "Exact real arithmetic. The counts by reason are exact if every attempt can be calculated, which holds if LAPACK does not fail (calculable); a failure of LAPACK ends the scan. max_keep_per_proc at least 1 (C14) and at least one Fourier mode. The contents of the files are those of C22; timings are not written."
  },
  {
   "property": "C90",
   "status": "proved",
   "theorems": [
    "Qsc.ScanRun.scan_ends",
    "Qsc.ScanRun.scan_refused"
   ],
   "note": "Exact real arithmetic. MPI as in C17. Negative nphi and nfp of zero or below are reported as outside the model (std::valarray of negative size, division by zero)."
  },
  {
   "property": "C91",
   "status": "proved",
   "theorems": [
    "Qsc.MultiOptRun.stages_in_files",
    "Qsc.MultiOptRun.histories_in_files"
   ],
   "note": "Exact real arithmetic. As C86 and C87 for each stage. fourier_refine below 2^31. A stage that makes no iteration is reported as outside the model (error idle); the code then writes results of the stage before."
  },
  {
   "property": "C92",
   "status": "proved",
   "theorems": [
    "Qsc.MultiOptRun.outcomes",
    "Qsc.MultiOptRun.completes"
   ],
   "note": "Exact real arithmetic. As C88."
  },
  {
   "property": "C93",
   "status": "proved",
   "theorems": [
    "Qsc.MultiScanRun.scan_file"
   ],
   "note": "Exact real arithmetic. Sizes in the file are not negative; logarithmic grids have positive bounds. A stage that makes no iteration is reported as outside the model (error idle). The results of grid points are made before the messages, because they do not depend on them."
  },
  {
   "property": "C94",
   "status": "proved",
   "theorems": [
    "Qsc.MultiScanRun.scan_ends",
    "Qsc.MultiScanRun.point_outcomes",
    "Qsc.MultiScanRun.point_completes"
   ],
   "note": "Exact real arithmetic. MPI as in C20 and C21; without any buffering the scan can deadlock (C21)."
  },
  {
   "property": "C95",
   "status": "proved",
   "theorems": [
    "Qsc.FortranFile.fortran_read",
    "Qsc.FortranFile.overread",
    "Qsc.FortranFile.fortran_needs",
    "Qsc.FortranFile.stale_memory",
    "Qsc.FortranFile.no_blank",
    "Qsc.FortranFile.cxx_file"
   ],
   "note": "Number conversion by netCDF is not modelled (integers stay integers), nor fill values. The division of line 180 is modelled after the last get."
  },
  {
   "property": "C96",
   "status": "proved",
   "theorems": [
    "Qsc.Program.exit_status",
    "Qsc.Program.output_files",
    "Qsc.Program.origin_right",
    "Qsc.Program.other_sections",
    "Qsc.Program.refused",
    "Qsc.Program.opt_again"
   ],
   "note": "Built on the models of the five calculations. Time, printing, command line parsing of MPI and the return value after an exception are not modelled: a run that throws does not end normally."
  },
  {
   "property": "C97",
   "status": "proved",
   "theorems": [
    "Qsc.Symmetry.first_symmetric"
   ],
   "note": "Exact real arithmetic; the linear solver is exact (its answer is the only solution). No division by zero: R, the curvature, eta_bar and B0 are not zero."
  },
  {
   "property": "C98",
   "status": "proved",
   "theorems": [
    "Qsc.Symmetry.second_symmetric"
   ],
   "note": "As C97; iota_N is not zero. r_hat_singularity_robust is not covered, because it depends on the eigenvalue routine."
  },
  {
   "property": "C99",
   "status": "proved",
   "theorems": [
    "Qsc.MachineInt.arrays_fit",
    "Qsc.MachineInt.places_distinct",
    "Qsc.MachineInt.allocate_fits",
    "Qsc.MachineInt.negative_refused",
    "Qsc.MachineInt.conversions",
    "Qsc.MachineInt.multi_scan_fits",
    "Qsc.MachineInt.random_start_fits",
    "Qsc.MachineInt.collect_fits"
   ],
   "note": "int has 32 bits, big and size_t have 64. The other parts of the model use unbounded integers; these theorems say where that is right for sizes and indices."
  }
 ]
}