# Axioms

Output of `#print axioms` for every theorem named in MANIFEST.json.

* `Qsc.Helicity.helicity_never_throws`: propext, Classical.choice, Quot.sound
* `Qsc.Helicity.helicity_eq_winding`: propext, Classical.choice, Quot.sound
* `Qsc.Helicity.helicity_shift`: propext, Classical.choice, Quot.sound
* `Qsc.Helicity.helicity_reverse`: propext, Classical.choice, Quot.sound
* `Qsc.Outfile.outfile_ok`: propext, Classical.choice, Quot.sound
* `Qsc.Outfile.outfile_error_iff`: propext, Classical.choice, Quot.sound
* `Qsc.Outfile.outfile_total`: propext, Classical.choice, Quot.sound
* `Qsc.Outfile.outfile_injective`: propext, Classical.choice, Quot.sound
* `Qsc.Toml.qscInput_ok_iff`: propext, Classical.choice, Quot.sound
* `Qsc.Toml.qscInput_unknown_key`: propext, Classical.choice, Quot.sound
* `Qsc.Toml.qscInput_error_reason`: propext, Classical.choice, Quot.sound
* `Qsc.Toml.qscInput_accepts`: propext, Classical.choice, Quot.sound
* `Qsc.Toml.padAll_spec`: propext, Classical.choice, Quot.sound
* `Qsc.Toml.padAll_idem`: propext, Classical.choice, Quot.sound
* `Qsc.Toml.qscInput_ok_iff`: propext, Classical.choice, Quot.sound
* `Qsc.VecMat.matrix_layout`: propext, Classical.choice, Quot.sound
* `Qsc.VecMat.rank3_layout`: propext, Classical.choice, Quot.sound
* `Qsc.VecMat.rank4_layout`: propext, Classical.choice, Quot.sound
* `Qsc.VecMat.resize_spec`: propext, Quot.sound
* `Qsc.VecMat.matrix_set_get`: propext, Quot.sound
* `Qsc.VecMat.rank3_set_get`: propext, Quot.sound
* `Qsc.VecMat.rank4_set_get`: propext, Quot.sound
* `Qsc.VecMat.rank3_setRow`: propext, Classical.choice, Quot.sound
* `Qsc.VecMat.rank4_setRow`: propext, Classical.choice, Quot.sound
* `Qsc.VecMat.matrix_row_overflow_aliases`: propext
* `Qsc.VecMat.matrixVectorProduct_spec`: propext, Classical.choice, Quot.sound
* `Qsc.VecMat.dotProduct_spec`: propext, Classical.choice, Quot.sound
* `Qsc.VecMat.assign_get`: propext
* `Qsc.VecMat.assign_faithful_iff`: propext, Classical.choice, Quot.sound
* `Qsc.VecMat.assign_not_faithful`: propext
* `Qsc.VecMat.assign_allocated_iff`: none
* `Qsc.VecMat.assign_after_resize`: propext
* `Qsc.Random.construct_ok_iff`: propext, Classical.choice, Quot.sound
* `Qsc.Random.construct_swap`: propext, Classical.choice, Quot.sound
* `Qsc.Random.construct_unknown_iff`: propext, Classical.choice, Quot.sound
* `Qsc.Random.get_in_range`: propext, Classical.choice, Quot.sound
* `Qsc.Random.swap_mirrors`: propext, Classical.choice, Quot.sound
* `Qsc.Random.swap_has_effect`: propext, Classical.choice, Quot.sound
* `Qsc.Random.seek_eq_draws`: propext, Classical.choice, Quot.sound
* `Qsc.Random.nth_value`: propext, Classical.choice, Quot.sound
* `Qsc.Random.seek_draw_add`: propext, Classical.choice, Quot.sound
* `Qsc.Random.sequence_injective`: propext, Classical.choice, Quot.sound
* `Qsc.Random.degenerate_never_advances`: propext, Classical.choice, Quot.sound
* `Qsc.Random.setToNth_nondeterministic`: propext, Classical.choice, Quot.sound
* `Qsc.Scaling.same_in_units`: propext, Classical.choice, Quot.sound
* `Qsc.Scaling.ends_in_units`: propext, Classical.choice, Quot.sound
* `Qsc.Reversal.same_opposite`: propext, Classical.choice, Quot.sound
* `Qsc.Reversal.ends_opposite`: propext, Classical.choice, Quot.sound
* `Qsc.HalfTurn.same_turned`: propext, Classical.choice, Quot.sound
* `Qsc.HalfTurn.ends_turned`: propext, Classical.choice, Quot.sound
* `Qsc.Mirror.same_mirrored`: propext, Classical.choice, Quot.sound
* `Qsc.Mirror.ends_mirrored`: propext, Classical.choice, Quot.sound
* `Qsc.Shift.same_moved`: propext, Classical.choice, Quot.sound
* `Qsc.Shift.ends_moved`: propext, Classical.choice, Quot.sound
* `Qsc.Nested.contains_lower`: propext, Classical.choice, Quot.sound
* `Qsc.Nested.ends_lower`: propext, Classical.choice, Quot.sound
* `Qsc.OptReversal.opt_opposite`: propext, Classical.choice, Quot.sound
* `Qsc.OptReversal.ends_iff`: propext, Classical.choice, Quot.sound
* `Qsc.OptReversal.residual_signs`: propext, Classical.choice, Quot.sound
* `Qsc.ScanReversal.scan_opposite`: propext, Classical.choice, Quot.sound
* `Qsc.ScanReversal.scan_opposite_iff`: propext, Classical.choice, Quot.sound
* `Qsc.GridReversal.grid_opposite`: propext, Classical.choice, Quot.sound
* `Qsc.GridReversal.grid_opposite_iff`: propext, Classical.choice, Quot.sound
* `Qsc.StagesReversal.stages_opposite`: propext, Classical.choice, Quot.sound
* `Qsc.StagesReversal.stages_ends_iff`: propext, Classical.choice, Quot.sound
* `Qsc.Scan.scan_bookkeeping`: propext, Classical.choice, Quot.sound
* `Qsc.ProgramReversal.program_opposite`: propext, Classical.choice, Quot.sound
* `Qsc.ProgramReversal.program_ends_iff`: propext, Classical.choice, Quot.sound
* `Qsc.OptMemory.opt_memory`: propext, Classical.choice, Quot.sound
* `Qsc.OptMemory.stages_memory`: propext, Classical.choice, Quot.sound
* `Qsc.ScanMemory.scan_memory`: propext, Classical.choice, Quot.sound
* `Qsc.ScanMemory.grid_memory`: propext, Classical.choice, Quot.sound
* `Qsc.ScanMemory.program_memory`: propext, Classical.choice, Quot.sound
* `Qsc.Scan.scan_saves_exactly`: propext, Classical.choice, Quot.sound
* `Qsc.Scan.passes_iff`: propext, Classical.choice, Quot.sound
* `Qsc.Scan.r0At0_exact`: propext, Classical.choice, Quot.sound
* `Qsc.Scan.r0AtHalfPeriod_exact`: propext, Classical.choice, Quot.sound
* `Qsc.Scan.nan_candidate_passes`: propext, Quot.sound
* `Qsc.Scan.nan_is_saved`: propext, Classical.choice, Quot.sound
* `Qsc.Scan.scan_within_limits`: propext, Classical.choice, Quot.sound
* `Qsc.Scan.scan_stops_iff`: propext, Classical.choice, Quot.sound
* `Qsc.Scan.scan_stopped_is_final`: propext, Quot.sound
* `Qsc.Scan.scan_time_limit`: propext, Classical.choice, Quot.sound
* `Qsc.Scan.scan_max_keep_zero`: propext, Classical.choice, Quot.sound
* `Qsc.ScanDraws.deterministic_split`: propext, Classical.choice, Quot.sound
* `Qsc.ScanDraws.start_ok_iff`: propext, Classical.choice, Quot.sound
* `Qsc.ScanDraws.deterministic_results`: propext, Classical.choice, Quot.sound
* `Qsc.ScanDraws.deterministic_no_limit`: propext, Classical.choice, Quot.sound
* `Qsc.Collect.collect_all_schedules`: propext, Classical.choice, Quot.sound
* `Qsc.Collect.gathered_configurations`: propext, Classical.choice, Quot.sound
* `Qsc.Collect.gathered_from_loop`: propext, Classical.choice, Quot.sound
* `Qsc.Collect.named_output`: propext, Classical.choice, Quot.sound
* `Qsc.Collect.collect_all_schedules`: propext, Classical.choice, Quot.sound
* `Qsc.Collect.collect_mismatch_never_returns`: propext, Quot.sound
* `Qsc.Collect.checkpoint_counts_can_differ`: propext, Classical.choice, Quot.sound
* `Qsc.ScanGrid.decode_spec`: propext, Classical.choice, Quot.sound
* `Qsc.ScanGrid.decode_unique`: propext, Classical.choice, Quot.sound
* `Qsc.ScanGrid.linear_grid`: propext, Classical.choice, Quot.sound
* `Qsc.ScanGrid.log_grid`: propext, Classical.choice, Quot.sound
* `Qsc.ScanGrid.grid_monotone`: propext, Classical.choice, Quot.sound
* `Qsc.ScanGrid.init_ok_iff`: propext, Classical.choice, Quot.sound
* `Qsc.MultiScan.each_index_once`: propext, Classical.choice, Quot.sound
* `Qsc.MultiScan.guards`: propext, Quot.sound
* `Qsc.MultiScan.bounded_work`: propext, Classical.choice, Quot.sound
* `Qsc.MultiScan.no_deadlock`: propext, Classical.choice, Quot.sound
* `Qsc.MultiScan.can_finish`: propext, Classical.choice, Quot.sound
* `Qsc.MultiScan.schedule_independent`: propext, Classical.choice, Quot.sound
* `Qsc.MultiScan.synchronous_deadlock`: propext, Classical.choice, Quot.sound
* `Qsc.MultiScan.counters`: propext, Classical.choice, Quot.sound
* `Qsc.MultiScan.never_fails`: propext, Classical.choice, Quot.sound
* `Qsc.MultiScan.saved_in_order`: propext, Classical.choice, Quot.sound
* `Qsc.MultiScan.saved_in_order`: propext, Classical.choice, Quot.sound
* `Qsc.MultiScan.saved_scalar`: propext, Classical.choice, Quot.sound
* `Qsc.MultiScan.saved_mode`: propext, Classical.choice, Quot.sound
* `Qsc.MultiScan.saved_ints`: propext
* `Qsc.MultiScan.meaning_complete`: propext
* `Qsc.ScanParams.param_exact`: propext, Classical.choice, Quot.sound
* `Qsc.ScanParams.param_ok_iff`: propext, Classical.choice, Quot.sound
* `Qsc.ScanParams.param_unknown_throws`: propext, Classical.choice, Quot.sound
* `Qsc.ScanParams.param_late_throws`: propext, Classical.choice, Quot.sound
* `Qsc.ScanParams.param_all_stages_throws`: propext, Classical.choice, Quot.sound
* `Qsc.ScanParams.all_exact`: propext, Classical.choice, Quot.sound
* `Qsc.ScanParams.out_of_bounds`: propext, Classical.choice, Quot.sound
* `Qsc.Newton.converged_correct`: propext
* `Qsc.Newton.norm_not_increased`: propext
* `Qsc.Newton.converged_correct`: propext
* `Qsc.Newton.failed_residual`: propext, Quot.sound
* `Qsc.Newton.bounded_work`: propext, Quot.sound
* `Qsc.OptState.names_layout`: propext, Classical.choice, Quot.sound
* `Qsc.OptState.layout_determined`: propext, Quot.sound
* `Qsc.OptState.set_values`: propext, Quot.sound
* `Qsc.OptState.unpack_values`: propext, Classical.choice, Quot.sound
* `Qsc.OptState.pack_unpack`: propext, Classical.choice, Quot.sound
* `Qsc.OptState.unpack_pack`: propext, Classical.choice, Quot.sound
* `Qsc.OptState.unpack_injective`: propext, Classical.choice, Quot.sound
* `Qsc.OptResid.names_entries`: propext, Classical.choice, Quot.sound
* `Qsc.OptResid.entries_determined`: propext, Quot.sound
* `Qsc.OptResid.refused_iff`: propext, Classical.choice, Quot.sound
* `Qsc.OptResid.residual_entries`: propext, Classical.choice, Quot.sound
* `Qsc.OptResid.objective_half`: propext, Classical.choice, Quot.sound
* `Qsc.OptResid.bounds_one_sided`: propext, Classical.choice, Quot.sound
* `Qsc.OptResid.target_zero_iff`: propext, Quot.sound
* `Qsc.OptResid.fractions_sum`: propext, Classical.choice, Quot.sound
* `Qsc.OptLoop.history`: propext, Classical.choice, Quot.sound
* `Qsc.OptLoop.sizes_checked`: propext, Classical.choice, Quot.sound
* `Qsc.OptLoop.unequal_undefined`: propext
* `Qsc.OptLoop.refinement`: propext, Classical.choice, Quot.sound
* `Qsc.OptLoop.stages`: propext, Classical.choice, Quot.sound
* `Qsc.OptLoop.stage_sizes`: propext, Classical.choice, Quot.sound
* `Qsc.Outfile.stageOutfile_ok`: propext, Classical.choice, Quot.sound
* `Qsc.Outfile.stageOutfile_injective`: propext, Classical.choice, Quot.sound
* `Qsc.Setup.validate_spec`: propext, Quot.sound
* `Qsc.Setup.odd_spec`: propext, Classical.choice, Quot.sound
* `Qsc.Setup.allocate_idempotent`: propext, Classical.choice, Quot.sound
* `Qsc.Setup.allocate_dims`: propext, Quot.sound
* `Qsc.Setup.init_dims`: propext, Classical.choice, Quot.sound
* `Qsc.Setup.init_dims_opt`: propext, Quot.sound
* `Qsc.Setup.driver_spec`: propext
* `Qsc.Setup.documented_scan_throws`: none
* `Qsc.DiffMat.antisymmetric_circulant`: propext, Classical.choice, Quot.sound
* `Qsc.DiffMat.off_diagonal`: propext, Classical.choice, Quot.sound
* `Qsc.DiffMat.exact_on_trigPoly`: propext, Classical.choice, Quot.sound
* `Qsc.DiffMat.unresolved_mode`: propext, Classical.choice, Quot.sound
* `Qsc.Axis.init_ok`: propext, Classical.choice, Quot.sound
* `Qsc.Axis.grid`: propext, Classical.choice, Quot.sound
* `Qsc.Axis.derivatives`: propext, Classical.choice, Quot.sound
* `Qsc.Axis.curve_derivatives`: propext, Classical.choice, Quot.sound
* `Qsc.Axis.frenet`: propext, Classical.choice, Quot.sound
* `Qsc.Axis.curvature_regular`: propext, Classical.choice, Quot.sound
* `Qsc.Axis.d2l_eq`: propext, Classical.choice, Quot.sound
* `Qsc.Axis.orthonormal`: propext, Classical.choice, Quot.sound
* `Qsc.Axis.frenet_serret`: propext, Classical.choice, Quot.sound
* `Qsc.Axis.helicity_eq`: propext, Classical.choice, Quot.sound
* `Qsc.Axis.boozer_steps`: propext, Classical.choice, Quot.sound
* `Qsc.Axis.boozer_increasing`: propext, Classical.choice, Quot.sound
* `Qsc.Axis.boozer_closes`: propext, Classical.choice, Quot.sound
* `Qsc.Axis.varphi_derivative`: propext, Classical.choice, Quot.sound
* `Qsc.R1.residual_meaning`: propext, Classical.choice, Quot.sound
* `Qsc.R1.jacobian_exact`: propext, Classical.choice, Quot.sound
* `Qsc.R1.jacobian_derivative`: propext, Classical.choice, Quot.sound
* `Qsc.R1.full_step`: propext, Classical.choice, Quot.sound
* `Qsc.R1.area`: propext, Classical.choice, Quot.sound
* `Qsc.R1.elongation_ratio`: propext, Classical.choice, Quot.sound
* `Qsc.R1.elongation_relation`: propext, Classical.choice, Quot.sound
* `Qsc.R1.elongation_bounds`: propext, Classical.choice, Quot.sound
* `Qsc.R1.after_init_axis`: propext, Classical.choice, Quot.sound
* `Qsc.R2.system_iff`: propext, Classical.choice, Quot.sound
* `Qsc.R2.area_relations`: propext, Classical.choice, Quot.sound
* `Qsc.R2.ok_after_init_axis`: propext, Classical.choice, Quot.sound
* `Qsc.R2.b20_mean`: propext, Classical.choice, Quot.sound
* `Qsc.R2.b20_variation`: propext, Classical.choice, Quot.sound
* `Qsc.R2.grid_maxima`: propext, Classical.choice, Quot.sound
* `Qsc.R2.grid_maxima_third`: propext, Classical.choice, Quot.sound
* `Qsc.R2.mercier_geod`: propext, Classical.choice, Quot.sound
* `Qsc.R2.mercier_well`: propext, Classical.choice, Quot.sound
* `Qsc.R2.mercier_signs`: propext, Classical.choice, Quot.sound
* `Qsc.R2.volume_second_derivative`: propext, Classical.choice, Quot.sound
* `Qsc.R2.mercier_integral`: propext, Classical.choice, Quot.sound
* `Qsc.Quartic.charpoly`: propext, Classical.choice, Quot.sound
* `Qsc.Quartic.charpoly_complex`: propext, Classical.choice, Quot.sound
* `Qsc.Quartic.eigenvalue_iff_root`: propext, Classical.choice, Quot.sound
* `Qsc.Quartic.roots_exact`: propext, Classical.choice, Quot.sound
* `Qsc.Quartic.real_roots`: propext, Classical.choice, Quot.sound
* `Qsc.Quartic.roots_error`: propext, Classical.choice, Quot.sound
* `Qsc.RSing.angle_equation`: propext, Classical.choice, Quot.sound
* `Qsc.RSing.quartic_root`: propext, Classical.choice, Quot.sound
* `Qsc.RSing.reported_sound`: propext, Classical.choice, Quot.sound
* `Qsc.RSing.reported_le`: propext, Classical.choice, Quot.sound
* `Qsc.RSing.reported_least`: propext, Classical.choice, Quot.sound
* `Qsc.RSing.missed_scaling`: propext, Classical.choice, Quot.sound
* `Qsc.RSing.missed_mirror`: propext, Classical.choice, Quot.sound
* `Qsc.RSing.missed_linear`: propext, Classical.choice, Quot.sound
* `Qsc.RSing.least_false`: propext, Classical.choice, Quot.sound
* `Qsc.RSing.calculate_spec`: propext, Classical.choice, Quot.sound
* `Qsc.RSing.calculate_returns`: propext, Classical.choice, Quot.sound
* `Qsc.R1.trace_eq`: propext, Classical.choice, Quot.sound
* `Qsc.R1.curl_eq`: propext, Classical.choice, Quot.sound
* `Qsc.R1.curl_perp`: propext, Classical.choice, Quot.sound
* `Qsc.R1.maxwell`: propext, Classical.choice, Quot.sound
* `Qsc.R1.product_rule`: propext, Classical.choice, Quot.sound
* `Qsc.R1.length_scale`: propext, Classical.choice, Quot.sound
* `Qsc.R1.length_scale_min`: propext, Classical.choice, Quot.sound
* `Qsc.Setup.named_spec`: propext, Classical.choice, Quot.sound
* `Qsc.Setup.named_alias`: propext, Classical.choice, Quot.sound
* `Qsc.Netcdf.run_contents`: propext, Classical.choice, Quot.sound
* `Qsc.Netcdf.dims_shared`: propext, Quot.sound
* `Qsc.Netcdf.string_dims`: propext, Classical.choice, Quot.sound
* `Qsc.Netcdf.run_ok`: propext, Classical.choice, Quot.sound
* `Qsc.Netcdf.strDim_injective`: propext, Classical.choice, Quot.sound
* `Qsc.Newton.seen_state`: propext
* `Qsc.Setup.flags_set`: none
* `Qsc.Setup.opt_reads_unset`: none
* `Qsc.Setup.opt_recovers`: propext, Classical.choice, Quot.sound
* `Qsc.OptLoop.ends_at_last_record`: propext, Classical.choice, Quot.sound
* `Qsc.OptLoop.rejected_trial_kept`: propext
* `Qsc.Newton.follows_rule`: propext, Quot.sound
* `Qsc.Newton.rule_iff`: propext, Classical.choice, Quot.sound
* `Qsc.OptLoop.evaluations`: propext, Classical.choice, Quot.sound
* `Qsc.Axis.extrema`: propext, Classical.choice, Quot.sound
* `Qsc.Axis.averages`: propext, Classical.choice, Quot.sound
* `Qsc.Axis.average_bounds`: propext, Classical.choice, Quot.sound
* `Qsc.Axis.short_array_undefined`: propext, Classical.choice, Quot.sound
* `Qsc.Axis.extra_modes_ignored`: propext, Classical.choice, Quot.sound
* `Qsc.R1.solve_spec`: propext, Classical.choice, Quot.sound
* `Qsc.R2.field_agrees`: propext, Classical.choice, Quot.sound
* `Qsc.R2.field_strength`: propext, Classical.choice, Quot.sound
* `Qsc.R2.force_balance`: propext, Classical.choice, Quot.sound
* `Qsc.R2.ok_after_init_axis`: propext, Classical.choice, Quot.sound
* `Qsc.R2.third_order`: propext, Classical.choice, Quot.sound
* `Qsc.R2.third_order_shape`: propext, Classical.choice, Quot.sound
* `Qsc.RSing.jacobian_expansion`: propext, Classical.choice, Quot.sound
* `Qsc.RSing.first_coefficients`: propext, Classical.choice, Quot.sound
* `Qsc.Output.round_trip`: propext, Classical.choice, Quot.sound
* `Qsc.Output.allocate_members`: propext, Classical.choice, Quot.sound
* `Qsc.Output.qsc_written`: propext, Classical.choice, Quot.sound
* `Qsc.Output.scan_written`: propext, Classical.choice, Quot.sound
* `Qsc.Output.multiopt_written`: propext, Classical.choice, Quot.sound
* `Qsc.Output.opt_written_partial`: propext, Classical.choice, Quot.sound
* `Qsc.Output.opt_false`: propext, Classical.choice, Quot.sound
* `Qsc.GradGradB.first_derivative`: propext, Classical.choice, Quot.sound
* `Qsc.GradGradB.ready_after_init_axis`: propext, Classical.choice, Quot.sound
* `Qsc.GradGradB.second_derivative`: propext, Classical.choice, Quot.sound
* `Qsc.GradGradB.second_derivative_unique`: propext, Classical.choice, Quot.sound
* `Qsc.GradGradB.symmetric`: propext, Classical.choice, Quot.sound
* `Qsc.GradGradB.along_axis`: propext, Classical.choice, Quot.sound
* `Qsc.GradGradB.ready_after_init_axis`: propext, Classical.choice, Quot.sound
* `Qsc.GradGradB.alternative`: propext, Classical.choice, Quot.sound
* `Qsc.GradGradB.length_scale`: propext, Classical.choice, Quot.sound
* `Qsc.GradGradB.length_scale_min`: propext, Classical.choice, Quot.sound
* `Qsc.GradGradB.wire_scale`: propext, Classical.choice, Quot.sound
* `Qsc.GradGradB.divergence`: propext, Classical.choice, Quot.sound
* `Qsc.GradGradB.curl_current`: propext, Classical.choice, Quot.sound
* `Qsc.GradGradB.curl_along`: propext, Classical.choice, Quot.sound
* `Qsc.GradGradB.vacuum_symmetric`: propext, Classical.choice, Quot.sound
* `Qsc.Sections.scanInput_iff`: propext, Classical.choice, Quot.sound
* `Qsc.Sections.scanInput_ready`: propext, Classical.choice, Quot.sound
* `Qsc.Sections.optInput_iff`: propext, Classical.choice, Quot.sound
* `Qsc.Sections.optInput_nphi`: propext, Classical.choice, Quot.sound
* `Qsc.Sections.optInput_flags`: propext, Classical.choice, Quot.sound
* `Qsc.Sections.optInput_no_axis`: propext, Classical.choice, Quot.sound
* `Qsc.Sections.multioptInput_iff`: propext, Classical.choice, Quot.sound
* `Qsc.Sections.multioptInput_no_nopts`: propext, Classical.choice, Quot.sound
* `Qsc.Sections.stage_depends`: propext, Classical.choice, Quot.sound
* `Qsc.Sections.stage_sections`: propext, Classical.choice, Quot.sound
* `Qsc.Sections.groupName_injective`: propext, Classical.choice, Quot.sound
* `Qsc.Sections.multiScanInput_iff`: propext, Classical.choice, Quot.sound
* `Qsc.Sections.assertSizes_iff`: propext, Quot.sound
* `Qsc.Pipeline.constructors_typed`: propext, Classical.choice, Quot.sound
* `Qsc.Pipeline.initialised`: propext, Classical.choice, Quot.sound
* `Qsc.Pipeline.optRun_fine`: propext, Classical.choice, Quot.sound
* `Qsc.Pipeline.negative_refine`: propext, Classical.choice, Quot.sound
* `Qsc.Pipeline.no_weight`: propext, Classical.choice, Quot.sound
* `Qsc.Pipeline.no_weight_keys`: propext, Classical.choice, Quot.sound
* `Qsc.Pipeline.terms_zero`: propext, Classical.choice, Quot.sound
* `Qsc.Pipeline.multioptRun_fine`: propext, Classical.choice, Quot.sound
* `Qsc.Pipeline.runStages_safe`: propext, Classical.choice, Quot.sound
* `Qsc.Pipeline.runStages_eq`: propext, Classical.choice, Quot.sound
* `Qsc.Pipeline.same_start`: propext, Classical.choice, Quot.sound
* `Qsc.Pipeline.default_flags_refused`: propext, Classical.choice, Quot.sound
* `Qsc.ScanPipeline.scan_starts`: propext, Classical.choice, Quot.sound
* `Qsc.ScanPipeline.startable_iff`: propext, Classical.choice, Quot.sound
* `Qsc.ScanPipeline.steps_tries`: propext, Classical.choice, Quot.sound
* `Qsc.ScanPipeline.scan_saved`: propext, Classical.choice, Quot.sound
* `Qsc.ScanPipeline.scan_output`: propext, Classical.choice, Quot.sound
* `Qsc.ScanPipeline.scan_output_bounds`: propext, Classical.choice, Quot.sound
* `Qsc.MultiScanPipeline.scanned`: propext, Classical.choice, Quot.sound
* `Qsc.MultiScanPipeline.init_iff`: propext, Classical.choice, Quot.sound
* `Qsc.MultiScanPipeline.points_exact`: propext, Classical.choice, Quot.sound
* `Qsc.MultiScanPipeline.stages_of_point`: propext, Classical.choice, Quot.sound
* `Qsc.MultiScanPipeline.evaluation`: propext, Classical.choice, Quot.sound
* `Qsc.MultiScanPipeline.no_iterations`: propext, Classical.choice, Quot.sound
* `Qsc.MultiScanPipeline.cfgOf_file`: propext, Classical.choice, Quot.sound
* `Qsc.MultiScanPipeline.scan_output`: propext, Classical.choice, Quot.sound
* `Qsc.MultiScanPipeline.scan_final`: propext, Classical.choice, Quot.sound
* `Qsc.Single.ends_only`: propext, Classical.choice, Quot.sound
* `Qsc.Single.ends`: propext, Classical.choice, Quot.sound
* `Qsc.Single.refused`: propext, Classical.choice, Quot.sound
* `Qsc.Single.better_library`: propext, Classical.choice, Quot.sound
* `Qsc.Single.output_settings`: propext, Classical.choice, Quot.sound
* `Qsc.Single.output_axis`: propext, Classical.choice, Quot.sound
* `Qsc.Single.output_unique`: propext, Classical.choice, Quot.sound
* `Qsc.Single.output_first`: propext, Classical.choice, Quot.sound
* `Qsc.Single.output_sigma`: propext, Classical.choice, Quot.sound
* `Qsc.Single.memory_irrelevant`: propext, Classical.choice, Quot.sound
* `Qsc.Single.output_second`: propext, Classical.choice, Quot.sound
* `Qsc.Single.tables_unique`: propext, Classical.choice, Quot.sound
* `Qsc.DiffMat.even_antisymmetric`: propext, Classical.choice, Quot.sound
* `Qsc.DiffMat.even_exact`: propext, Classical.choice, Quot.sound
* `Qsc.DiffMat.even_error`: propext, Classical.choice, Quot.sound
* `Qsc.OptRun.final_in_file`: propext, Classical.choice, Quot.sound
* `Qsc.OptRun.settings_in_file`: propext, Classical.choice, Quot.sound
* `Qsc.OptRun.outcomes`: propext, Classical.choice, Quot.sound
* `Qsc.OptRun.evaluation`: propext, Classical.choice, Quot.sound
* `Qsc.OptRun.describable`: propext, Classical.choice, Quot.sound
* `Qsc.OptRun.history_in_file`: propext, Classical.choice, Quot.sound
* `Qsc.OptRun.describable`: propext, Classical.choice, Quot.sound
* `Qsc.OptRun.outcomes`: propext, Classical.choice, Quot.sound
* `Qsc.OptRun.completes`: propext, Classical.choice, Quot.sound
* `Qsc.ScanRun.scan_file`: propext, Classical.choice, Quot.sound
* `Qsc.ScanRun.calculable`: propext, Classical.choice, Quot.sound
* `Qsc.ScanRun.scan_ends`: propext, Classical.choice, Quot.sound
* `Qsc.ScanRun.scan_refused`: propext, Classical.choice, Quot.sound
* `Qsc.MultiOptRun.stages_in_files`: propext, Classical.choice, Quot.sound
* `Qsc.MultiOptRun.histories_in_files`: propext, Classical.choice, Quot.sound
* `Qsc.MultiOptRun.outcomes`: propext, Classical.choice, Quot.sound
* `Qsc.MultiOptRun.completes`: propext, Classical.choice, Quot.sound
* `Qsc.MultiScanRun.scan_file`: propext, Classical.choice, Quot.sound
* `Qsc.MultiScanRun.scan_ends`: propext, Classical.choice, Quot.sound
* `Qsc.MultiScanRun.point_outcomes`: propext, Classical.choice, Quot.sound
* `Qsc.MultiScanRun.point_completes`: propext, Classical.choice, Quot.sound
* `Qsc.FortranFile.fortran_read`: propext, Classical.choice, Quot.sound
* `Qsc.FortranFile.overread`: propext, Classical.choice, Quot.sound
* `Qsc.FortranFile.fortran_needs`: propext, Classical.choice, Quot.sound
* `Qsc.FortranFile.stale_memory`: propext, Classical.choice, Quot.sound
* `Qsc.FortranFile.no_blank`: propext, Classical.choice, Quot.sound
* `Qsc.FortranFile.cxx_file`: propext, Classical.choice, Quot.sound
* `Qsc.Program.exit_status`: propext, Classical.choice, Quot.sound
* `Qsc.Program.output_files`: propext, Classical.choice, Quot.sound
* `Qsc.Program.origin_right`: propext, Classical.choice, Quot.sound
* `Qsc.Program.other_sections`: propext, Classical.choice, Quot.sound
* `Qsc.Program.refused`: propext, Classical.choice, Quot.sound
* `Qsc.Program.opt_again`: propext, Classical.choice, Quot.sound
* `Qsc.Symmetry.first_symmetric`: propext, Classical.choice, Quot.sound
* `Qsc.Symmetry.second_symmetric`: propext, Classical.choice, Quot.sound
* `Qsc.MachineInt.arrays_fit`: propext, Classical.choice, Quot.sound
* `Qsc.MachineInt.places_distinct`: propext, Quot.sound
* `Qsc.MachineInt.allocate_fits`: propext, Classical.choice, Quot.sound
* `Qsc.MachineInt.negative_refused`: propext, Quot.sound
* `Qsc.MachineInt.conversions`: propext, Quot.sound
* `Qsc.MachineInt.multi_scan_fits`: propext, Classical.choice, Quot.sound
* `Qsc.MachineInt.random_start_fits`: propext, Classical.choice, Quot.sound
* `Qsc.MachineInt.collect_fits`: propext, Classical.choice, Quot.sound
