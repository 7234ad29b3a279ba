{
 "claims": [
  {
   "property": "C01",
   "status": "proved",
   "theorems": [
    "Parcels.KernelLoop.C01_clock_never_passes_end",
    "Parcels.KernelLoop.C01_success_means_arrived",
    "Parcels.KernelLoop.C01_calls_evenly_spaced",
    "Parcels.KernelLoop.C01_loop_terminates",
    "Parcels.JitLoop.C01_jit_clock_never_passes_end",
    "Parcels.JitLoop.C01_jit_success_means_arrived",
    "Parcels.JitLoop.C01_jit_calls_evenly_spaced",
    "Parcels.JitLoop.C01_jit_loop_terminates"
   ],
   "note": "Both modes; exact arithmetic. In JIT mode a particle whose own dt is 0 gets one call with dt 0 (C46), and the last two theorems assume that no step asked for earlier is left in the C globals."
  },
  {
   "property": "C02",
   "status": "proved",
   "theorems": [
    "Parcels.KernelLoop.C02_failed_call_leaves_no_trace",
    "Parcels.KernelLoop.C02_single_failure",
    "Parcels.JitLoop.C02_jit_failed_call_leaves_no_trace"
   ],
   "note": "Both modes, every kernel. The exception in JIT mode, variables of type uint64, is C67."
  },
  {
   "property": "C03",
   "status": "partial",
   "theorems": [
    "Parcels.KernelLoop.C03_each_particle_as_if_alone",
    "Parcels.KernelLoop.C03_set_runs_if_each_runs",
    "Parcels.KernelLoop.C03_permutation",
    "Parcels.JitLoop.C03_jit_each_particle_as_if_alone_partial",
    "Parcels.JitLoop.C03_jit_permutation_partial",
    "Parcels.JitLoop.C46_leak_fails"
   ],
   "note": "Scipy-mode loop proved in full; JIT mode proved for kernels that never call update_next_dt and violated otherwise: C46_leak_fails shows a step asked for by one particle given to the next."
  },
  {
   "property": "C04",
   "status": "proved",
   "theorems": [
    "Parcels.Recovery.C04_execute_leaves_no_pending_particle",
    "Parcels.JitExec.C04_jit_execute_leaves_no_pending_particle"
   ],
   "note": "Kernel.execute in both modes."
  },
  {
   "property": "C05",
   "status": "proved",
   "theorems": [
    "Parcels.Recovery.C05_handlers_called_exactly_on_their_errors",
    "Parcels.Recovery.C05_outcome_of_recovery"
   ],
   "note": ""
  },
  {
   "property": "C06",
   "status": "partial",
   "theorems": [
    "Parcels.Recovery.C06_runtime_zero_runs_twice",
    "Parcels.KernelLoop.C06_one_call_per_pass",
    "Parcels.JitLoop.C06_jit_one_call_per_pass",
    "Parcels.Recovery.C06_runtime_zero_once_partial"
   ],
   "note": "False for kernels that fail and are recovered: counterexample proved. Exactly once per pass, and exactly once overall for kernels that never fail."
  },
  {
   "property": "C07",
   "status": "partial",
   "theorems": [
    "Parcels.KernelLoop.C07_short_step_persists",
    "Parcels.KernelLoop.C07_user_dt_every_step_partial"
   ],
   "note": "False in general: counterexample proved. Holds when all interruption times are multiples of dt away from the start."
  },
  {
   "property": "C08",
   "status": "partial",
   "theorems": [
    "Parcels.KernelMerge.C08_sum_runs_both_partial",
    "Parcels.KernelMerge.C08_addition_associative",
    "Parcels.KernelMerge.C08_bare_function",
    "Parcels.KernelMerge.C08_first_return_ends_sum",
    "Parcels.KernelMerge.C08_early_return_skips_second",
    "Parcels.KernelMerge.C08_argument_names_differ",
    "Parcels.KernelMerge.C08_shared_names"
   ],
   "note": "Holds for kernels with the same argument names and no name capture, when the first kernel ends without return. Counterexamples proved for the rest: an early successful return skips the second kernel."
  },
  {
   "property": "C09",
   "status": "proved",
   "theorems": [
    "Parcels.Schedule.C09_stops_are_monotone_and_end_at_E",
    "Parcels.Schedule.C09_periodic_events_at_scheduled_times",
    "Parcels.Schedule.C09_no_input_time_skipped",
    "Parcels.Schedule.C09_exact_on_unit"
   ],
   "note": "Within the loop tolerance 1e-12 s in general, exactly when all times are multiples of a unit of at least 1e-12 s. Release times are in C11."
  },
  {
   "property": "C10",
   "status": "proved",
   "theorems": [
    "Parcels.Schedule.C10_output_times",
    "Parcels.Schedule.C10_output_times_exact"
   ],
   "note": ""
  },
  {
   "property": "C11",
   "status": "partial",
   "theorems": [
    "Parcels.Schedule.C11_release_times",
    "Parcels.Schedule.C11_split_run",
    "Parcels.Schedule.C11_runtime_zero_releases"
   ],
   "note": "Proved for dt != 0 and times on a common unit; fails for runtime=0: release without passage of time."
  },
  {
   "property": "C12",
   "status": "partial",
   "theorems": [
    "Parcels.Schedule.C12_terminates_partial",
    "Parcels.Schedule.C12_zero_interval_never_ends",
    "Parcels.Schedule.C12_no_fieldset_backward_crashes"
   ],
   "note": "outputdt=0, moviedt=0, callbackdt=0 are accepted but never end."
  },
  {
   "property": "C13",
   "status": "partial",
   "theorems": [
    "Parcels.Collection.C13_unique_ids_partial",
    "Parcels.Collection.C13_empty_set_repeats_ids"
   ],
   "note": "False when an empty ParticleSet is constructed: the ID counter restarts at 0."
  },
  {
   "property": "C14",
   "status": "partial",
   "theorems": [
    "Parcels.Collection.C14_arrays_aligned_partial",
    "Parcels.Collection.C14_repeated_index",
    "Parcels.Collection.C14_other_variables"
   ],
   "note": "False for repeated indices and for sets with other variables (counterexamples proved)."
  },
  {
   "property": "C15",
   "status": "proved",
   "theorems": [
    "Parcels.Collection.C15_add",
    "Parcels.Collection.C15_remove_indices",
    "Parcels.Collection.C15_remove_index",
    "Parcels.Collection.C15_remove_mask",
    "Parcels.Collection.C15_add_then_remove"
   ],
   "note": ""
  },
  {
   "property": "C16",
   "status": "partial",
   "theorems": [
    "Parcels.Collection.C16_lookup_partial",
    "Parcels.Collection.C16_delete_marks_that_particle",
    "Parcels.Collection.C16_negation"
   ],
   "note": "False after adding an unsorted set to an empty one."
  },
  {
   "property": "C17",
   "status": "partial",
   "theorems": [
    "Parcels.Collection.C17_sorted_lookup_never_works",
    "Parcels.Collection.C17_unsorted_lookup_partial",
    "Parcels.Collection.C17_single_lookup_partial"
   ],
   "note": "Holds for unsorted sets and single IDs; false for every sorted set and every list with two IDs of the set."
  },
  {
   "property": "C18",
   "status": "proved",
   "theorems": [
    "Parcels.Output.C18_at_most_one_record",
    "Parcels.Output.C18_record_is_active_or_deleted"
   ],
   "note": "Calls that the library makes; exact times."
  },
  {
   "property": "C19",
   "status": "proved",
   "theorems": [
    "Parcels.Output.C19_once_exactly_once"
   ],
   "note": "For write_ondelete=False on a new file, for runs in which no write raises (C63)."
  },
  {
   "property": "C20",
   "status": "partial",
   "theorems": [
    "Parcels.Output.C20_deleted_particles_written_partial",
    "Parcels.Output.C20_deleted_right_after_write",
    "Parcels.Output.C20_first_particle_lost"
   ],
   "note": "False when a particle is deleted at the time of the last regular write, and for deleted_only=True when only the first particle is deleted."
  },
  {
   "property": "C21",
   "status": "partial",
   "theorems": [
    "Parcels.Npy.C21_export_is_the_records",
    "Parcels.Npy.C21_once_column",
    "Parcels.Output.C21_run_then_export",
    "Parcels.Npy.C21_ranks_merge_to_serial",
    "Parcels.Npy.C21_once_in_path"
   ],
   "note": "Proved for output paths that do not contain \"once\"; false otherwise (counterexample)."
  },
  {
   "property": "C22",
   "status": "partial",
   "theorems": [
    "Parcels.Crash.C22_crash_keeps_completed_calls_partial",
    "Parcels.Output.C22_once_only_with_records",
    "Parcels.Crash.C22_index_window"
   ],
   "note": "Proved for every crash point except while the index file is rewritten; then everything is lost (proved in general)."
  },
  {
   "property": "C23",
   "status": "partial",
   "theorems": [
    "Parcels.Collection.C23_ranks_partition_the_particles",
    "Parcels.Collection.C23_repeated_release",
    "Parcels.Collection.C23_negative_partition_loses_particle",
    "Parcels.Collection.C23_repeated_release_raises"
   ],
   "note": "Distribution of particles and IDs proved; merging of output files is in C21. Two counterexamples."
  },
  {
   "property": "C24",
   "status": "partial",
   "theorems": [
    "Parcels.Search.C24_scipy",
    "Parcels.Search.C24_scipy_3D",
    "Parcels.Search.C24_jit",
    "Parcels.Search.C24_scipy_and_jit_agree",
    "Parcels.Search.C24_zonal_halo_index_error",
    "Parcels.Search.C24_jit_3D"
   ],
   "note": "Proved for flat meshes without zonal halo, for every axis, coordinate and starting cell; false with a zonal halo (range check is off, Scipy raises IndexError)."
  },
  {
   "property": "C25",
   "status": "proved",
   "theorems": [
    "Parcels.Search.C25_z_levels_scipy",
    "Parcels.Search.C25_s_levels_scipy",
    "Parcels.Search.C25_column_increasing",
    "Parcels.Search.C25_z_levels_jit",
    "Parcels.SLevels.C25_s_levels_jit"
   ],
   "note": "Scipy and JIT, z levels and s levels, increasing and decreasing axes."
  },
  {
   "property": "C26",
   "status": "partial",
   "theorems": [
    "Parcels.Search.C26_scipy_sound",
    "Parcels.Search.C26_scipy_found_partial",
    "Parcels.Search.C26_jit_sound",
    "Parcels.Search.C26_range_check_too_wide",
    "Parcels.Search.C26_more_than_one_turn",
    "Parcels.Search.C26_dateline_cell_rejected",
    "Parcels.Search.C26_jit_found_partial",
    "Parcels.Search.C26_scipy_found_3D_partial",
    "Parcels.Search.C26_jit_found_3D_partial",
    "Parcels.Search.C26_jit_wide_cell_fails"
   ],
   "note": "Every returned cell is right modulo 360 (both modes). Every longitude that passes the range check and is on the unwrapped axis, as it is or with 360 added, is found: Scipy (2D and with depth levels), and JIT from every previous cell of the particle (also with 360 taken away if the axis has no jump), for cells narrower than 135 degrees, at most one turn and at most 5000 longitudes. False beyond one turn, for the range check across the date line, and in JIT mode for a cell of 140 degrees (the search goes to and fro until it gives up): counterexamples."
  },
  {
   "property": "C27",
   "status": "partial",
   "theorems": [
    "Parcels.Curvilinear.C27_position_partial",
    "Parcels.Curvilinear.C27_inside_partial",
    "Parcels.Curvilinear.C27_error_partial",
    "Parcels.Curvilinear.C27_corners",
    "Parcels.Curvilinear.C27_found_partial",
    "Parcels.Curvilinear.C27_quarter_turn",
    "Parcels.Curvilinear.C27_rectangles",
    "Parcels.Curvilinear.C27_vertical_fails",
    "Parcels.Curvilinear.C27_stale_fails",
    "Parcels.Curvilinear.C27_degenerate_fails",
    "Parcels.Curvilinear.C27_small_fails",
    "Parcels.Curvilinear.C27_orientation_fails"
   ],
   "note": "Proved, for every accepted cell: the returned coordinates are, up to clamping within 1e-10, relative coordinates of the position, provided the cell is clear (sides exactly parallel or clearly not), the position has coordinates with respect to it, and no line eta=const is vertical; and the converse for a search started in the right cell, and for grids of rectangles from any starting cell. The code violates the property without these provisos: five witnesses. Exact arithmetic."
  },
  {
   "property": "C28",
   "status": "partial",
   "theorems": [
    "Parcels.Curvilinear.C28_step_iff",
    "Parcels.Curvilinear.C28_result_valid",
    "Parcels.Curvilinear.C28_flat_jit_partial",
    "Parcels.Curvilinear.C28_first_guess",
    "Parcels.Curvilinear.C28_scipy_fails",
    "Parcels.Curvilinear.C28_populate_fails"
   ],
   "note": "Proved: the returned cell is always valid; one step stays valid exactly unless it folds over the last row from one of the first two columns; in JIT mode on flat meshes the whole walk is valid. The property is false in Scipy mode on any mesh and in JIT mode on spherical meshes: witness. A search that starts at a node of the last row or column, as after populate_indices, uses a cell that does not exist, in both modes."
  },
  {
   "property": "C29",
   "status": "partial",
   "theorems": [
    "Parcels.Interp.C29_scipy_2D",
    "Parcels.Interp.C29_jit_2D",
    "Parcels.Interp.C29_scipy_3D_partial",
    "Parcels.Interp.C29_jit_3D_partial",
    "Parcels.Interp.C29_between_2D",
    "Parcels.Interp.C29_between_3D",
    "Parcels.Interp.C29_exact_2D",
    "Parcels.Interp.C29_exact_3D",
    "Parcels.Interp.C29_at_node",
    "Parcels.Interp.C29_pop_lowest_layer",
    "Parcels.Interp.C29_mom5_top_layer",
    "Parcels.Interp.C29_scipy_spherical_2D_partial",
    "Parcels.Interp.C29_jit_spherical_2D_partial",
    "Parcels.Interp.C29_scipy_spherical_3D_partial",
    "Parcels.Interp.C29_jit_spherical_3D_partial",
    "Parcels.Interp.C29_spherical_modes_agree_2D_partial",
    "Parcels.Interp.C29_seam_history_fails",
    "Parcels.CurviField.C29_curvilinear_scipy_2D",
    "Parcels.CurviField.C29_curvilinear_scipy_3D_partial",
    "Parcels.CurviField.C29_curvilinear_jit_2D",
    "Parcels.CurviField.C29_curvilinear_jit_3D_partial",
    "Parcels.CurviField.C29_curvilinear_exact",
    "Parcels.CurviField.C29_curvilinear_linear_scipy_partial",
    "Parcels.CurviField.C29_curvilinear_linear_jit_partial"
   ],
   "note": "Both modes sample the reference bi/trilinear formula of every cell that contains the position (hence continuity), for flat and for spherical rectilinear grids (on the sphere: cells modulo 360, for the longitudes of C26), NEMO and MITgcm indexing; the formula is bounded by the surrounding values, exact at nodes and for functions linear in each coordinate. False for POP indexing in the lowest layer, MOM5 above the first level, and in JIT mode at the seam of a full turn whose two ends hold different data (C29_pop_lowest_layer, C29_mom5_top_layer, C29_seam_history_fails). On curvilinear grids with z levels: every sample is the reference formula of an existing cell and of the layer of z, at the relative coordinates of the position under the provisos of C27, and exact for functions linear in position. Curvilinear grids with s levels: see C74. Missing: that sampling succeeds there (C28)."
  },
  {
   "property": "C30",
   "status": "partial",
   "theorems": [
    "Parcels.Interp.C30_scipy_2D",
    "Parcels.Interp.C30_jit_2D",
    "Parcels.Interp.C30_scipy_3D",
    "Parcels.Interp.C30_jit_3D_partial",
    "Parcels.Interp.C30_unique",
    "Parcels.Interp.C30_midway_differs",
    "Parcels.Interp.C30_pop_lowest_layer",
    "Parcels.Interp.C30_scipy_spherical_2D_partial",
    "Parcels.Interp.C30_jit_spherical_2D_partial",
    "Parcels.Interp.C30_scipy_spherical_3D_partial",
    "Parcels.Interp.C30_jit_spherical_3D_partial",
    "Parcels.CurviField.C30_curvilinear_scipy_partial",
    "Parcels.CurviField.C30_curvilinear_jit_partial",
    "Parcels.CurviField.C30_curvilinear_distance_fails"
   ],
   "note": "Flat and spherical rectilinear grids: the value is that of a node nearest along every axis (on the sphere: nearest on the circle of longitudes) among all nodes of the grid; on flat grids unique, so the modes agree, unless midway (C30_midway_differs). False in JIT mode for POP indexing in the lowest layer (C30_pop_lowest_layer). On curvilinear grids with z levels: the corner of the cell that is nearest in relative coordinates, which need not be the nearest node in space (C30_curvilinear_distance_fails)."
  },
  {
   "property": "C31",
   "status": "partial",
   "theorems": [
    "Parcels.Interp.C31_jit_2D_partial",
    "Parcels.Interp.C31_jit_3D_partial",
    "Parcels.Interp.C31_scipy_2D_partial",
    "Parcels.Interp.C31_scipy_3D_partial",
    "Parcels.Interp.C31_weighted_mean",
    "Parcels.Interp.C31_jit_land_node",
    "Parcels.Interp.C31_scipy_2D_transposed",
    "Parcels.Interp.C31_scipy_3D_node",
    "Parcels.Interp.C31_scipy_small_values"
   ],
   "note": "The property is false as stated: Scipy 2D tests the transposed land mask, Scipy 3D returns the transposed node value on a node, JIT returns the only ocean value even on a land node, and Scipy counts values below 1e-8 as land. Proved for all other patterns and positions on flat rectilinear grids."
  },
  {
   "property": "C32",
   "status": "proved",
   "theorems": [
    "Parcels.TimeInterp.C32_scipy_inside",
    "Parcels.TimeInterp.C32_scipy_outside",
    "Parcels.TimeInterp.C32_jit_inside",
    "Parcels.TimeInterp.C32_jit_outside"
   ],
   "note": "Both modes, every increasing axis, every time, every stored time index (JIT), with all snapshots loaded; the choice of the loaded snapshots is C39. Times in exact arithmetic."
  },
  {
   "property": "C33",
   "status": "partial",
   "theorems": [
    "Parcels.TimeInterp.C33_scipy",
    "Parcels.TimeInterp.C33_scipy_value_partial",
    "Parcels.TimeInterp.C33_jit_partial",
    "Parcels.TimeInterp.C33_jit_value_partial",
    "Parcels.TimeInterp.C33_modes_agree",
    "Parcels.TimeInterp.C33_last_interval_fails",
    "Parcels.TimeInterp.C33_jit_never_ends_fails",
    "Parcels.TimeInterp.C33_jit_end_of_axis",
    "Parcels.TimeInterp.C33_nearly_equal_span",
    "Parcels.TimeInterp.C33_xarray_fails"
   ],
   "note": "Fields loaded at once (for deferred loading see C39). Scipy: periodicity proved when the constructor extends the axis or it spans exactly P, and the value is the interpolation between the snapshots around the time. The code violates the property: if the constructor extends the axis, Scipy mode does not interpolate after the last snapshot (C33_last_interval_fails, for all such fields), and JIT mode recurses without end there (C33_jit_never_ends_fails, for all such fields and any stack), because tdim is not updated. JIT elsewhere: value proved for all periods (C33_jit_value_partial); on axes that span P, periodic except at the end of the axis if the last snapshot differs from the first (C33_jit_partial, C33_jit_end_of_axis). False in both modes when the axis spans P only up to np.isclose (C33_nearly_equal_span). from_xarray_dataset ignores time_periodic (C33_xarray_fails)."
  },
  {
   "property": "C34",
   "status": "partial",
   "theorems": [
    "Parcels.FieldLists.C34_jit",
    "Parcels.FieldLists.C34_scipy_partial",
    "Parcels.FieldLists.C34_scipy_on_grids",
    "Parcels.FieldLists.C34_scipy_sampling_error"
   ],
   "note": "JIT: proved for every list. Scipy: proved except that an interpolation error (for example a NaN value) of a covering field is not passed on, the next field decides (C34_scipy_sampling_error)."
  },
  {
   "property": "C35",
   "status": "partial",
   "theorems": [
    "Parcels.FieldLists.C35_scipy",
    "Parcels.FieldLists.C35_jit_scalar",
    "Parcels.FieldLists.C35_jit_vector_partial",
    "Parcels.FieldLists.C35_jit_vector_swallows",
    "Parcels.FieldLists.C35_add_partial",
    "Parcels.FieldLists.C35_add_changes_operand",
    "Parcels.FieldLists.C35_add_to_itself"
   ],
   "note": "Value and errors: proved in Scipy mode and for scalar fields in JIT mode; false for vector fields in JIT mode, which check the status of the last field only. The + operator changes its operand, and adding a summed field to itself never ends."
  },
  {
   "property": "C36",
   "status": "proved",
   "theorems": [
    "Parcels.Converters.C36_roundtrip",
    "Parcels.Converters.C36_modes_agree",
    "Parcels.Converters.C36_meaning",
    "Parcels.Converters.C36_unchanged"
   ],
   "note": "Real arithmetic. User-defined converters are not modelled."
  },
  {
   "property": "C37",
   "status": "partial",
   "theorems": [
    "Parcels.Converters.C37_order",
    "Parcels.Converters.C37_roundtrip_partial",
    "Parcels.Converters.C37_numpy_within_a_second",
    "Parcels.Converters.C37_subsecond_lost",
    "Parcels.Converters.C37_from_seconds"
   ],
   "note": "False for numpy dates that are not a whole number of seconds from the origin (C37_subsecond_lost); proved otherwise. Exact arithmetic."
  },
  {
   "property": "C38",
   "status": "proved",
   "theorems": [
    "Parcels.Halo.C38_data",
    "Parcels.Halo.C38_coordinates",
    "Parcels.Halo.C38_increasing",
    "Parcels.Halo.C38_sampling_periodic",
    "Parcels.Halo.C38_size_zero"
   ],
   "note": "Halo sizes 1 to the length of the axis, zonal and meridional, rectilinear and curvilinear coordinates. A halo of size 0 adds the whole domain on one side (C38_size_zero)."
  },
  {
   "property": "C39",
   "status": "partial",
   "theorems": [
    "Parcels.TimeChunk.C39_memory",
    "Parcels.TimeChunk.C39_forward",
    "Parcels.TimeChunk.C39_forward_samples",
    "Parcels.TimeChunk.C39_backward_partial",
    "Parcels.TimeChunk.C39_backward_samples_partial",
    "Parcels.TimeChunk.C39_periodic_partial",
    "Parcels.TimeChunk.C39_periodic_progress",
    "Parcels.TimeChunk.C39_backward_start_between",
    "Parcels.TimeChunk.C39_scipy_period_end",
    "Parcels.TimeChunk.C39_backward_periodic",
    "Parcels.TimeChunk.C39_loaded_at_once_differs"
   ],
   "note": "For every history of requests and samples: memory and bookkeeping agree (all fields, both directions); forward requests load the right pair and sampling from memory equals sampling the full series in both modes (non-periodic); backward requests likewise when the time is a snapshot time, inside the loaded pair or outside the series; forward runs of periodic fields give the right interpolation. False, with witnesses: a backward run that starts between snapshots loads the wrong pair; Scipy mode at the end of a period; backward runs of periodic fields; periodic fields whose axis the constructor extends differ from the same fields loaded at once."
  },
  {
   "property": "C40",
   "status": "partial",
   "theorems": [
    "Parcels.TimeChunk.C40_forward",
    "Parcels.TimeChunk.C40_forward_succeeds",
    "Parcels.TimeChunk.C40_backward_partial",
    "Parcels.TimeChunk.C40_stale_period",
    "Parcels.TimeChunk.C40_start_before",
    "Parcels.TimeChunk.C40_backward_periodic"
   ],
   "note": "Every field set in a forward run (any mix of periodic and other fields, any reachable state): the next input time is strictly ahead and until then every field has the needed snapshots. Backward for non-periodic fields from suitable times. False, with witnesses, for periodic fields after a jump back, when started before the first snapshot, and backward: the stored period count is stale."
  },
  {
   "property": "C41",
   "status": "partial",
   "theorems": [
    "Parcels.Scaling.C41_no_factor",
    "Parcels.Scaling.C41_no_bounds_partial",
    "Parcels.Scaling.C41_agree_iff",
    "Parcels.Scaling.C41_zero",
    "Parcels.Scaling.C41_full_false",
    "Parcels.Scaling.C41_history_partial",
    "Parcels.Scaling.C41_late_false",
    "Parcels.Scaling.C41_once"
   ],
   "note": "Direct loading masks before scaling, deferred loading after it: proved when only one of the two is used, with an exact characterisation of when they agree (C41_agree_iff) and counterexamples (C41_full_false, C41_late_false)."
  },
  {
   "property": "C42",
   "status": "partial",
   "theorems": [
    "Parcels.GridSet.C42_stands_partial",
    "Parcels.GridSet.C42_same_coordinates_partial",
    "Parcels.GridSet.C42_reuse",
    "Parcels.GridSet.C42_auto",
    "Parcels.GridSet.C42_history_partial",
    "Parcels.GridSet.C42_time_false",
    "Parcels.GridSet.C42_mesh_false"
   ],
   "note": "Proved up to the tolerance of np.allclose; false for equality (C42_time_false, C42_mesh_false)."
  },
  {
   "property": "C43",
   "status": "partial",
   "theorems": [
    "Parcels.Names.C43_distinct_partial",
    "Parcels.Names.C43_kept",
    "Parcels.Names.C43_own",
    "Parcels.Names.C43_reads",
    "Parcels.Names.C43_samples_partial",
    "Parcels.Names.C43_full_false",
    "Parcels.Names.C43_clash_reads"
   ],
   "note": "Proved if no field is called like another field followed by a number; false otherwise, and the C code then silently reads another field (C43_full_false, C43_clash_reads)."
  },
  {
   "property": "C44",
   "status": "partial",
   "theorems": [
    "Parcels.Codegen.C44_value_partial",
    "Parcels.Codegen.C44_truth_partial",
    "Parcels.Codegen.C44_or_in_and_fails",
    "Parcels.Codegen.C44_comparison_in_product_fails",
    "Parcels.Codegen.C44_comparison_of_comparison_fails",
    "Parcels.Codegen.C44_integer_division_fails",
    "Parcels.Codegen.C44_modulo_fails",
    "Parcels.Codegen.C44_float_modulo_fails",
    "Parcels.Codegen.C44_or_as_number_fails"
   ],
   "note": "Proved, with a C parser and a typed C semantics, for the expressions of `safe` (Spec/Codegen), of any size; false in general: the generator drops parentheses around and/or and comparisons, and C divides integers (the _fails theorems)."
  },
  {
   "property": "C45",
   "status": "partial",
   "theorems": [
    "Parcels.Codegen.C45_kernel_partial",
    "Parcels.Codegen.C45_no_loops_partial",
    "Parcels.Codegen.C45_advection",
    "Parcels.Codegen.C45_swap_fails",
    "Parcels.Codegen.C45_while_fails",
    "Parcels.Codegen.C45_while_sample_fails",
    "Parcels.Codegen.C45_after_delete_fails",
    "Parcels.Codegen.C45_delete_if_sample_fails",
    "Parcels.Codegen.C45_if_summed_fails",
    "Parcels.Codegen.C45_short_circuit_fails",
    "Parcels.Codegen.C45_product_of_sum_fails"
   ],
   "note": "Proved for the kernels of `Supported` (Spec/CodegenStmt), of any size, among them the library's RK4, RK4_3D and Euler kernels; false in general: tuples are assigned one by one, while becomes do-while, and samples in tests are moved (the _fails theorems)."
  },
  {
   "property": "C46",
   "status": "partial",
   "theorems": [
    "Parcels.JitLoop.C46_same_steps_partial",
    "Parcels.JitLoop.C46_same_steps_back_partial",
    "Parcels.JitLoop.C46_tolerance_fails",
    "Parcels.JitLoop.C46_zero_dt_fails",
    "Parcels.JitLoop.C46_leak_fails"
   ],
   "note": "Proved both ways for every set of particles, any kernel that is Steady (changes dt either not at all or by more than the tolerance, and asks for a next step only in calls that succeed) and particles with own dt not 0; false without these conditions (the _fails theorems)."
  },
  {
   "property": "C47",
   "status": "partial",
   "theorems": [
    "Parcels.Chunks.C47_reads_datum_partial",
    "Parcels.Chunks.C47_history_partial",
    "Parcels.Chunks.C47_one_chunk",
    "Parcels.Chunks.C47_single_level_chunks_fails",
    "Parcels.Chunks.C47_single_row_fails"
   ],
   "note": "Proved for any number of axes, any chunk sizes, any history of requests, loads, snapshots and changes of kernel, if no inner chunk has a single node and axes with one node only occur in unsplit grids. False otherwise: chunks of one depth level make the C code read the upper level for the lower one; a grid with a single row, split along the other axis, is read outside its arrays."
  },
  {
   "property": "C48",
   "status": "proved",
   "theorems": [
    "Parcels.Chunks.C48_states",
    "Parcels.Chunks.C48_states_snapshot",
    "Parcels.Chunks.C48_request_served",
    "Parcels.Chunks.C48_current",
    "Parcels.JitExec.C48_repeat_or_run",
    "Parcels.JitExec.C48_not_moved",
    "Parcels.JitExec.C48_same_as_in_memory"
   ],
   "note": "State transitions for all events and layouts; requests are served with current data; a repeated particle keeps time and variables; and executing with chunks gives the same particles as executing with all data in memory, both ways, for kernels that sample cells of the grid (layouts as in C47), with kernels and recovery functions that keep dt nonzero."
  },
  {
   "property": "C49",
   "status": "proved",
   "theorems": [
    "Parcels.Advection.C49_uniform_step",
    "Parcels.Advection.C49_uniform_step3",
    "Parcels.Advection.C49_forward_backward",
    "Parcels.Advection.C49_forward_backward3",
    "Parcels.Advection.C49_backward_fails",
    "Parcels.Advection.C49_cubic_step",
    "Parcels.Advection.C49_uniform_run",
    "Parcels.Advection.C49_cubic_run",
    "Parcels.Advection.C49_methods",
    "Parcels.Advection.C49_orders",
    "Parcels.Advection.C49_linear"
   ],
   "note": "Order is stated by the order conditions for all rooted trees. The _fails theorem shows why the reversal claim is limited to RK4: EE and RK45 do not return to the start."
  },
  {
   "property": "C50",
   "status": "proved",
   "theorems": [
    "Parcels.Advection.C50_accept",
    "Parcels.Advection.C50_loop",
    "Parcels.Advection.C50_left_behind_fails"
   ],
   "note": "For every flow, for the kernel alone (real numbers, Euclidean distance) and for a turn of either particle loop. The _fails theorem is a finding beyond the property: where no step is within tolerance, execute ends normally and the particle is left behind."
  },
  {
   "property": "C51",
   "status": "partial",
   "theorems": [
    "Parcels.CGrid.C51_rectangle_partial",
    "Parcels.CGrid.C51_uniform_partial",
    "Parcels.CGrid.C51_flux_partial",
    "Parcels.CGrid.C51_on_face_partial",
    "Parcels.CGrid.C51_continuous_partial",
    "Parcels.CGrid.C51_shared_faces",
    "Parcels.CGrid.C51_mitgcm_jit",
    "Parcels.CGrid.C51_modes_sphere_partial",
    "Parcels.CGrid.C51_face_sphere_partial",
    "Parcels.CGrid.C51_rectangle_sphere_partial",
    "Parcels.CGrid.C51_flat_jit_fails"
   ],
   "note": "All four parts proved for both modes, stronger than stated (any quadrilateral with non-zero Jacobian for uniform flow, face velocities and fluxes; also the sphere and agreement of the two modes), for cells at most 180 wide; JIT mode on flat meshes with wider cells gives the wrong sign or no number: witness. Exact arithmetic. The three-dimensional interpolation on s-grids is C73."
  },
  {
   "property": "C52",
   "status": "partial",
   "theorems": [
    "Parcels.Density.C52_conserved",
    "Parcels.Density.C52_number",
    "Parcels.Density.C52_defined",
    "Parcels.Density.C52_relative",
    "Parcels.Density.C52_float32",
    "Parcels.Density.C52_float32_fails",
    "Parcels.Density.C52_array_fails"
   ],
   "note": "Proved for every particle set, rectilinear grid and weights in exact arithmetic, and for the float32 result up to 2^24 particles. False beyond that (a cell with 2^24+1 particles), and a numpy array of values, which the documentation asks for, raises an error. Definedness is proved for flat grids."
  },
  {
   "property": "C53",
   "status": "proved",
   "theorems": [
    "Parcels.Layout.C53_variables",
    "Parcels.Layout.C53_reserved",
    "Parcels.Layout.C53_same_name_fails",
    "Parcels.Layout.C53_layout"
   ],
   "note": "For every class hierarchy. The _fails theorem shows the condition that no class declares two Variables of the same name is needed."
  },
  {
   "property": "C54",
   "status": "partial",
   "theorems": [
    "Parcels.Rng.C54_random",
    "Parcels.Rng.C54_roundings",
    "Parcels.Rng.C54_uniform_partial",
    "Parcels.Rng.C54_uniform_low",
    "Parcels.Rng.C54_uniform_fails",
    "Parcels.Rng.C54_randint",
    "Parcels.Rng.C54_randint_order_fails",
    "Parcels.Rng.C54_expovariate_partial",
    "Parcels.Rng.C54_expovariate_fails",
    "Parcels.Rng.C54_normalvariate_fails",
    "Parcels.Rng.C54_vonmises_partial"
   ],
   "note": "random() for every rounding; randint for every range; uniform, expovariate and vonmisesvariate in exact arithmetic. In float arithmetic uniform(0, 61) can exceed 61, expovariate can be infinite and normalvariate can divide by 0."
  },
  {
   "property": "C55",
   "status": "partial",
   "theorems": [
    "Parcels.TimeChunk.C55_record_partial",
    "Parcels.TimeChunk.C55_extra_record_single",
    "Parcels.TimeChunk.C55_extra_record_wrong"
   ],
   "note": "Every distribution of increasing times over files and every time index of the files. The extra snapshot of periodic fields is right when the first file has one record, and wrong (last record instead of first) otherwise: witness."
  },
  {
   "property": "C56",
   "status": "partial",
   "theorems": [
    "Parcels.Restart.C56_records",
    "Parcels.Restart.C56_active_partial",
    "Parcels.Restart.C56_default_time",
    "Parcels.Restart.C56_new_ids",
    "Parcels.Restart.C56_deleted_returns_fails",
    "Parcels.Restart.C56_once_fails",
    "Parcels.Restart.C56_off_step_fails",
    "Parcels.Restart.C56_id_again_fails"
   ],
   "note": "From the run over the exported file to the restarted set: exactly the records with the restart time, with their IDs and values; these are the particles active then if no other call records a particle with that own time. False for particles deleted before they moved on from the restart time (they come back twice), particles within half a step, 'once' values when the rows differ (C62); IDs of particles that ended are given again."
  },
  {
   "property": "C57",
   "status": "partial",
   "theorems": [
    "Parcels.Analytical.C57_exit_partial",
    "Parcels.Analytical.C57_blocked",
    "Parcels.Analytical.C57_path",
    "Parcels.Analytical.C57_cell_2D_partial",
    "Parcels.Analytical.C57_cell_3D_partial",
    "Parcels.Analytical.C57_backward_fails",
    "Parcels.Analytical.C57_on_face_fails",
    "Parcels.Analytical.C57_divergence_fails",
    "Parcels.Analytical.C57_sphere_fails",
    "Parcels.Analytical.C57_tolerance_fails"
   ],
   "note": "Proved forward in time on flat meshes, in two and three dimensions, also with the intermediate steps of time-dependent fields: the path is the exact solution within the cell, the particle ends in the cell or on its boundary, and a step cut short ends exactly on a face; the time advanced is positive and bounded below. Hypothesis: in each direction the travel time is finite or the velocity vanishes on the way. The code violates the property backward in time, for a particle on a lower face moving out, near a line of divergence, and east of 225 degrees on the sphere; theorems _fails show this. Not modelled: lines 130-152 (moving to the next cell), the search itself."
  },
  {
   "property": "C58",
   "status": "partial",
   "theorems": [
    "Parcels.GridSet.C58_intersection",
    "Parcels.GridSet.C58_single",
    "Parcels.GridSet.C58_dates_partial",
    "Parcels.GridSet.C58_full_false"
   ],
   "note": "The range is the intersection of the axes used; false for directly loaded grids with another time origin, because their full axis is not moved (C58_full_false)."
  },
  {
   "property": "C59",
   "status": "partial",
   "theorems": [
    "Parcels.RepeatRelease.C59_releases_start_after_first_pass",
    "Parcels.RepeatRelease.C59_release_positions_wrong",
    "Parcels.RepeatRelease.C59_original_positions_partial",
    "Parcels.RepeatRelease.C59_release_keeps_the_others"
   ],
   "note": "False: the remembered positions alias the live arrays until the first removal."
  },
  {
   "property": "C60",
   "status": "partial",
   "theorems": [
    "Parcels.Recovery.C60_recovery_dictionary_is_changed",
    "Parcels.Recovery.C60_recovery_dictionary_partial"
   ],
   "note": "False: execute() stores the inherited through-surface entry in the caller dictionary."
  },
  {
   "property": "C61",
   "status": "partial",
   "theorems": [
    "Parcels.SharedData.C61_other_sets_unchanged_partial",
    "Parcels.SharedData.C61_negation",
    "Parcels.Precision.C61_precision_partial",
    "Parcels.Precision.C61_precision_fails"
   ],
   "note": "False: adding to an empty set makes the two sets share their data. The type of the coordinates is shared by all sets: a new set with another type makes earlier ones fail in JIT mode."
  },
  {
   "property": "C62",
   "status": "partial",
   "theorems": [
    "Parcels.Output.C62_deleted_between_outputs",
    "Parcels.Output.C62_write_ondelete",
    "Parcels.Output.C62_same_particles_partial"
   ],
   "note": "False for particles deleted between outputs and with write_ondelete=True."
  },
  {
   "property": "C63",
   "status": "partial",
   "theorems": [
    "Parcels.Output.C63_warning_raises",
    "Parcels.Output.C63_write_succeeds_partial"
   ],
   "note": "False: the warning about particle times indexes an array with a mask of the wrong length."
  },
  {
   "property": "C64",
   "status": "partial",
   "theorems": [
    "Parcels.Interp.C64_scipy_pop",
    "Parcels.Interp.C64_jit_pop_partial",
    "Parcels.Interp.C64_scipy_mom5_velocity_partial",
    "Parcels.Interp.C64_mom5_tracer_layer"
   ],
   "note": "Proved for POP and default indexing in both modes (JIT: at least three levels) and for MOM5 velocities; false for MOM5 tracers (C64_mom5_tracer_layer)."
  },
  {
   "property": "C65",
   "status": "partial",
   "theorems": [
    "Parcels.GridSet.C65_same_date_partial",
    "Parcels.GridSet.C65_single",
    "Parcels.GridSet.C65_full_false"
   ],
   "note": "False for periodic fields loaded directly with another time origin (C65_full_false)."
  },
  {
   "property": "C66",
   "status": "proved",
   "theorems": [
    "Parcels.Advection.C66_no_diffusion",
    "Parcels.Advection.C66_uniform_diffusion",
    "Parcels.Advection.C66_mean_drift",
    "Parcels.Advection.C66_backward_fails"
   ],
   "note": "The random increments are arguments of the modelled kernels; the mean is the integral over the normal law the kernels draw from. The _fails theorem shows that backward in time the two schemes have different mean drifts."
  },
  {
   "property": "C67",
   "status": "partial",
   "theorems": [
    "Parcels.Layout.C67_backup_partial",
    "Parcels.Layout.C67_backup_uint64_fails"
   ],
   "note": "Proved for all classes, variables and kernels except Variables of dtype uint64, for which it is false: they are not copied."
  },
  {
   "property": "C68",
   "status": "partial",
   "theorems": [
    "Parcels.Curvilinear.C68_uniform",
    "Parcels.Curvilinear.C68_range",
    "Parcels.Curvilinear.C68_linear_partial",
    "Parcels.Curvilinear.C68_linear_fails"
   ],
   "note": "Uniform fields and bounds: proved without restriction. Linear fields: exact under the provisos of C27 on flat meshes, for coordinates strictly inside the cell; false without them (witness)."
  },
  {
   "property": "C69",
   "status": "partial",
   "theorems": [
    "Parcels.Load.C69_array",
    "Parcels.Load.C69_direct_partial",
    "Parcels.Load.C69_direct_loads_partial",
    "Parcels.Load.C69_deferred_partial",
    "Parcels.Load.C69_deferred_loads_partial",
    "Parcels.Load.C69_reused_grid_fails",
    "Parcels.Load.C69_single_depth_fails",
    "Parcels.Load.C69_shared_grid_fails",
    "Parcels.Load.C69_tolerance_fails",
    "Parcels.Load.C69_pop_deferred_fails",
    "Parcels.Load.C69_mom5_short_fails"
   ],
   "note": "Arrays: proved in full (C69_array). Files: proved for all files with the same axes, all index lists, at once or deferred after any moves of the window, and that such loads succeed; provisos: more than one depth for (depth, lat, lon) data, coordinates up to np.allclose if given as matrices, a grid made of the same files. Six witnesses show that the code violates the property without them. Exact arithmetic; no masks, scaling, halo or chunks here (see C38, C41, C47)."
  },
  {
   "property": "C70",
   "status": "partial",
   "theorems": [
    "Parcels.Load.C70_write_read_partial",
    "Parcels.Load.C70_numeric_time_fails",
    "Parcels.Load.C70_curvilinear_fails",
    "Parcels.Load.C70_fieldset_partial",
    "Parcels.Load.C70_vector_fails"
   ],
   "note": "Proved: every field on a rectilinear grid, or on a curvilinear grid that np.allclose does not take for a rectilinear one, can be written and read back with the same nodes, depths, dates and values; numeric times are the same if they start at 0. The code violates the property otherwise, and FieldSet.write raises for every set with a vector field; theorems _fails show this. Not modelled: s-grids (the code raises), float32, the mesh attribute, writing while loading is deferred."
  },
  {
   "property": "C71",
   "status": "partial",
   "theorems": [
    "Parcels.FromNetcdf.C71_same_partial",
    "Parcels.FromNetcdf.C71_works_partial",
    "Parcels.FromNetcdf.C71_from_data_partial",
    "Parcels.FromNetcdf.C71_fieldtype_fails",
    "Parcels.FromNetcdf.C71_fieldtype_missing_fails",
    "Parcels.FromNetcdf.C71_files_by_dim_fails",
    "Parcels.FromNetcdf.C71_coordinates_shared_fails",
    "Parcels.FromNetcdf.C71_times_shared_fails",
    "Parcels.FromNetcdf.C71_deferred_fails",
    "Parcels.FromNetcdf.C71_from_data_fails",
    "Parcels.FromNetcdf.C71_loads_partial"
   ],
   "note": "Proved for all file contents and all lists of variables if fieldtype is not given and the files are lists (for all or per variable), or per variable and dimension with dimensions common to all variables and equal times for variables with the same files of coordinates: each field equals the one loaded alone, and all load if each does. The code violates the property otherwise (witnesses): a fieldtype dictionary is overwritten in the loop; {dim: files} fails with two variables; files per variable and dimension share the first variable's coordinates (dimensions per variable) or times (data files with other times); with a periodic series of two snapshots the second field is deferred, the first not; from_data takes the extrapolation default of the first variable for all. C71_loads_partial says what is loaded from one list of files."
  },
  {
   "property": "C72",
   "status": "partial",
   "theorems": [
    "Parcels.HaloSet.C72_continues_partial",
    "Parcels.HaloSet.C72_summed_fails",
    "Parcels.HaloSet.C72_two_names_fails",
    "Parcels.HaloSet.C72_constant_field_fails",
    "Parcels.HaloSet.C72_deferred_sizes_fails",
    "Parcels.HaloSet.C72_twice_fails"
   ],
   "note": "Proved for all FieldSets and sequences of calls with each direction extended at most once, fields loaded at once being attributes under one name, all axes of two nodes at least, sizes within the axes and, for deferred fields, equal sizes in all calls. Each condition is needed: members of summed or nested fields keep their old data (C72_summed_fails, for all FieldSets), two names, constant fields, different sizes with deferred loading and repeated calls fail."
  },
  {
   "property": "C73",
   "status": "partial",
   "theorems": [
    "Parcels.CGrid3D.C73_on_faces_partial",
    "Parcels.CGrid3D.C73_uniform_partial",
    "Parcels.CGrid3D.C73_box_partial",
    "Parcels.CGrid3D.C73_in_time_partial",
    "Parcels.CGrid3D.C73_upside_fails",
    "Parcels.CGrid3D.C73_moving_fails",
    "Parcels.CGrid3D.C73_mitgcm_fails",
    "Parcels.CGrid3D.C73_faces_nemo"
   ],
   "note": "Both modes agree and have the given normal velocities on the faces for all cells with positive Jacobian and thickness, flat and spherical. Uniform flow is reproduced on flat meshes if both levels are planes over the cell; missing: curved levels and the sphere. Fails for depths that decrease with the level (horizontal velocities reversed, for all cells), for levels that move in time (the modes differ) and for MITgcm indexing (faces of NEMO)."
  },
  {
   "property": "C74",
   "status": "partial",
   "theorems": [
    "Parcels.SLevels.C74_levels_ordered",
    "Parcels.SLevels.C74_scipy_partial",
    "Parcels.SLevels.C74_jit_partial",
    "Parcels.SLevels.C74_modes_agree",
    "Parcels.SLevels.C74_linear_exact",
    "Parcels.SLevels.C74_between",
    "Parcels.SLevels.C74_periodic_fails",
    "Parcels.CurviS.C74_curvilinear_scipy_partial",
    "Parcels.CurviS.C74_curvilinear_jit_partial",
    "Parcels.CurviS.C74_curvilinear_linear_exact"
   ],
   "note": "Both modes for all flat rectilinear grids, depths in either direction, fixed or moving, all positions and times, with extrapolation in time. On curvilinear grids (flat or spherical) the same holds in a cell in which the position is; in Scipy mode the two snapshots may be sampled in different such cells. Missing: MOM5 and POP indexing, spherical rectilinear grids, other methods. Fails for periodic fields on moving levels whose series is shorter than the period (IndexError in Scipy mode)."
  },
  {
   "property": "C75",
   "status": "partial",
   "theorems": [
    "Parcels.FromField.C75_rectilinear_partial",
    "Parcels.FromField.C75_density_equal_cells",
    "Parcels.FromField.C75_value_positive",
    "Parcels.FromField.C75_value_cgrid",
    "Parcels.FromField.C75_curvilinear_partial",
    "Parcels.FromField.C75_stretched_fails",
    "Parcels.FromField.C75_depth_fails",
    "Parcels.FromField.C75_single_row_fails",
    "Parcels.FromField.C75_two_levels_fails",
    "Parcels.FromField.C75_lon_jump_fails",
    "Parcels.FromField.C75_zero_nodes_fails"
   ],
   "note": "Number of particles, cells of positive weight, and the exact probability of every rectangle in every cell, for all fields and random numbers; in proportion to the field if the cells have equal areas. Fails on stretched grids, for start fields with depth levels, C-grid tracers with one row of cells, longitudes that jump by 360 degrees, and around nodes of value zero."
  },
  {
   "property": "C76",
   "status": "partial",
   "theorems": [
    "Parcels.ConstField.C76_uniform_scipy_partial",
    "Parcels.ConstField.C76_uniform_jit_partial",
    "Parcels.ConstField.C76_constant_field",
    "Parcels.ConstField.C76_pop_mom5_fails",
    "Parcels.ConstField.C76_tiny_fails",
    "Parcels.CurviField.C76_curvilinear_scipy_partial",
    "Parcels.CurviField.C76_curvilinear_jit_partial",
    "Parcels.CurviS.C76_curvilinear_s_scipy_partial",
    "Parcels.CurviS.C76_curvilinear_s_jit_partial",
    "Parcels.CurviS.C76_s_levels_scipy_partial",
    "Parcels.CurviS.C76_s_levels_jit_partial"
   ],
   "note": "All rectilinear grids and all curvilinear grids with z levels, all methods, times and positions in both modes, without POP and MOM5 indexing on grids with levels (false there). Grids with s levels, rectilinear and curvilinear, are included."
  },
  {
   "property": "C77",
   "status": "partial",
   "theorems": [
    "Parcels.Scope.C77_scope_partial",
    "Parcels.Scope.C77_clash_fails",
    "Parcels.Scope.C77_undeclared_fails"
   ],
   "note": "Proved for kernels whose local names differ from fields, constants and the names of the generated function. Fails otherwise: the clashes are not rejected, and two names are never declared."
  },
  {
   "property": "C78",
   "status": "partial",
   "theorems": [
    "Parcels.CellAreas.C78_equidistant_partial",
    "Parcels.CellAreas.C78_sphere_partial",
    "Parcels.CellAreas.C78_stretched_fails",
    "Parcels.CellAreas.C78_halo_fails"
   ],
   "note": "Exact on flat grids with equal spacing; on the sphere up to second order in the spacing of the rows. Fails on stretched grids and after add_periodic_halo if the areas were used before."
  },
  {
   "property": "C79",
   "status": "partial",
   "theorems": [
    "Parcels.Construct.C79_values_partial",
    "Parcels.Construct.C79_lengths",
    "Parcels.Construct.C79_accepts",
    "Parcels.Construct.C79_line",
    "Parcels.Construct.C79_copy_order_fails",
    "Parcels.Construct.C79_copy_unknown_fails",
    "Parcels.Construct.C79_repeat_fails"
   ],
   "note": "All classes and arguments. Fails for variables that start at the value of a variable that is set later or does not exist, and for the check of release times if the first is 0. Not modelled: MPI (C23), the cell indices, nested lists."
  },
  {
   "property": "C80",
   "status": "partial",
   "theorems": [
    "Parcels.Seawater.C80_pressure",
    "Parcels.Seawater.C80_pressure_order",
    "Parcels.Seawater.C80_gradient",
    "Parcels.Seawater.C80_potential_temperature",
    "Parcels.Seawater.C80_temperature",
    "Parcels.Seawater.C80_order_four",
    "Parcels.Seawater.C80_reference",
    "Parcels.Seawater.C80_teos",
    "Parcels.Seawater.C80_density_partial",
    "Parcels.Seawater.C80_density_order",
    "Parcels.Seawater.C80_density_fails"
   ],
   "note": "All kernels, inputs over the reals. Everything is proved but the density of UNESCO: there the code has the temperature in place of the pressure in one term; bounds of the error in the oceanographic range."
  },
  {
   "property": "C81",
   "status": "partial",
   "theorems": [
    "Parcels.OutVars.C81_file_partial",
    "Parcels.OutVars.C81_status",
    "Parcels.OutVars.C81_status_shared_fails",
    "Parcels.OutVars.C81_names_fails",
    "Parcels.OutVars.C81_time_id_fails",
    "Parcels.OutVars.C81_precision_fails"
   ],
   "note": "All classes and data, given the arrays read back from the temporary files (C21, C62), unless a variable has one of ten reserved names, IDs are not written or time is written once. Variables of the user are rounded to single precision; the status is shared by all sets with the variable."
  },
  {
   "property": "C82",
   "status": "partial",
   "theorems": [
    "Parcels.Complete.C82_pairs_partial",
    "Parcels.Complete.C82_triples_partial",
    "Parcels.Complete.C82_empty",
    "Parcels.Complete.C82_sum_partial",
    "Parcels.Complete.C82_dropped_fails",
    "Parcels.Complete.C82_unchecked_fails",
    "Parcels.Complete.C82_mitgcm_fails",
    "Parcels.Complete.C82_mixed_fails"
   ],
   "note": "Acceptance and combination for all fields of one kind with equally many components. Fails for sums and nests with fewer components in W or V than in U (dropped without an error), for mixed kinds, and for MITgcm indexing on curvilinear s-grids. Grids are compared exactly; the code allows rounding."
  },
  {
   "property": "C83",
   "status": "partial",
   "theorems": [
    "Parcels.Memory.C83_sample_partial",
    "Parcels.Memory.C83_history_partial",
    "Parcels.Memory.C83_mom5_fails",
    "Parcels.Memory.C83_pop_fails",
    "Parcels.Memory.C83_mitgcm_fails",
    "Parcels.Memory.C83_unset_fails",
    "Parcels.Memory.C83_halo_fails",
    "Parcels.Memory.C83_decreasing_fails",
    "Parcels.Memory.C83_column_fails",
    "Parcels.Memory.C83_exit_fails",
    "Parcels.Memory.C83_sphere_fails",
    "Parcels.Memory.C83_last_row_fails",
    "Parcels.Memory.C83_populate_fails"
   ],
   "note": "All rectilinear grids with increasing longitudes, all curvilinear grids on a flat mesh, all comparisons and arithmetic, any number of samples of fields and C-grid velocities on a grid that does not change in between. Excluded, and shown to read outside: MOM5 at the first level, POP with two levels, MITgcm, MOM5 and POP C-grid velocities, flat meshes with a zonal halo, decreasing longitudes, C-grid velocities on one column. Also shown to read outside: curvilinear grids on the sphere, and any curvilinear grid after populate_indices. Other memory of the generated code is not modelled."
  },
  {
   "property": "C84",
   "status": "partial",
   "theorems": [
    "Parcels.Access.C84_visits",
    "Parcels.Access.C84_visits_subset",
    "Parcels.Access.C84_visits_ids",
    "Parcels.Access.C84_read",
    "Parcels.Access.C84_invalid",
    "Parcels.Access.C84_write",
    "Parcels.Access.C84_next_dt",
    "Parcels.Access.C84_loop",
    "Parcels.Access.C84_loop_subset",
    "Parcels.Access.C84_data_indices",
    "Parcels.Access.C84_error_particles",
    "Parcels.Access.C84_kept_particle_partial",
    "Parcels.Access.C84_attribute_partial",
    "Parcels.Access.C84_set_vector",
    "Parcels.Access.C84_kept_particle_fails",
    "Parcels.Access.C84_remove_in_loop_fails",
    "Parcels.Access.C84_reverse_subset_fails",
    "Parcels.Access.C84_set_attribute_fails",
    "Parcels.Access.C84_unknown_attribute_fails"
   ],
   "note": "Visiting, reading, writing, loops of assignments and selection by value hold for all sets whose arrays are aligned (C14). A particle kept while an earlier one is removed becomes another particle; removing in a loop skips and raises; assigning to pset.v changes no particle; unknown names give False."
  },
  {
   "property": "C85",
   "status": "partial",
   "theorems": [
    "Parcels.Constructors.C85_fields",
    "Parcels.Constructors.C85_dimensions",
    "Parcels.Constructors.C85_accepts",
    "Parcels.Constructors.C85_refuses",
    "Parcels.Constructors.C85_files",
    "Parcels.Constructors.C85_filenames_kept_partial",
    "Parcels.Constructors.C85_filenames_changed_fails",
    "Parcels.Constructors.C85_from_parcels_names",
    "Parcels.Constructors.C85_extra_fields_changed_fails"
   ],
   "note": "Methods, indexing, factors, refusals, files and names are proved for all arguments. The code changes the caller's arguments in two cases (the two _fails theorems), so filenames is proved unchanged only without patterns in nested dictionaries. vmin and vmax are left to C41; arrays are represented by one value per field."
  },
  {
   "property": "C86",
   "status": "partial",
   "theorems": [
    "Parcels.ChunkSpec.C86_sizes_partial",
    "Parcels.ChunkSpec.C86_refused",
    "Parcels.ChunkSpec.C86_argument_after",
    "Parcels.ChunkSpec.C86_auto",
    "Parcels.ChunkSpec.C86_fields_partial",
    "Parcels.ChunkSpec.C86_shared_grid",
    "Parcels.ChunkSpec.C86_argument_fails",
    "Parcels.ChunkSpec.C86_order_fails",
    "Parcels.ChunkSpec.C86_per_variable_fails",
    "Parcels.ChunkSpec.C86_size_one_fails",
    "Parcels.ChunkSpec.C86_mixed_fails",
    "Parcels.ChunkSpec.C86_missing_variable_fails",
    "Parcels.ChunkSpec.C86_documented_format_fails"
   ],
   "note": "Blocks, refusals and what happens to the caller's dictionary are proved for every single file; for several fields, if every entry asks for blocks of every file. Otherwise the code removes entries from the caller's dictionary and the property fails (the _fails theorems)."
  },
  {
   "property": "C87",
   "status": "partial",
   "theorems": [
    "Parcels.Libs.C87_own_code",
    "Parcels.Libs.C87_runs_partial",
    "Parcels.Libs.C87_libraries",
    "Parcels.Libs.C87_clean_partial",
    "Parcels.Libs.C87_others",
    "Parcels.Libs.C87_keep_partial",
    "Parcels.Libs.C87_failed_compile_fails",
    "Parcels.Libs.C87_retry_fails",
    "Parcels.Libs.C87_failed_files_fails",
    "Parcels.Libs.C87_keep_fails",
    "Parcels.Libs.C87_same_time_fails"
   ],
   "note": "Proved for every history in which the clock advances between two readings and other processes use other names: the code that runs is the Kernel's own, libraries are closed once and belong to one Kernel, files of others are untouched. That executions always run and nothing is left behind: if no compilation fails. After a failed compilation, for kept files, and for a clock that stands still the property fails (the _fails theorems)."
  },
  {
   "property": "C88",
   "status": "partial",
   "theorems": [
    "Parcels.MixedChunks.C88_reads_partial",
    "Parcels.MixedChunks.C88_no_refusal_partial",
    "Parcels.MixedChunks.C88_data",
    "Parcels.MixedChunks.C88_mixed_fails",
    "Parcels.MixedChunks.C88_both_fails",
    "Parcels.MixedChunks.C88_one_block_fails",
    "Parcels.MixedChunks.C88_joined_fails"
   ],
   "note": "Proved for grids whose fields are all split in the same way, for all histories and orders of set-up. The full statement is false: a field opened without chunksize joins the grid of chunked fields (C88_joined_fails), after which compiled code reads wrong data of the chunked fields (C88_mixed_fails) or Python raises an error (C88_both_fails, C88_one_block_fails)."
  },
  {
   "property": "C89",
   "status": "partial",
   "theorems": [
    "Parcels.SharedFields.C89_dates",
    "Parcels.SharedFields.C89_in_place_partial",
    "Parcels.SharedFields.C89_added",
    "Parcels.SharedFields.C89_entries",
    "Parcels.SharedFields.C89_untouched_partial",
    "Parcels.SharedFields.C89_clock_partial",
    "Parcels.SharedFields.C89_clock_kept_partial",
    "Parcels.SharedFields.C89_entry_fails",
    "Parcels.SharedFields.C89_clock_fails",
    "Parcels.SharedFields.C89_grid_fails"
   ],
   "note": "Proved: dates of snapshots never change; after any program a field is in place in the FieldSet it was last added to, where entries of particles are inside the arrays and distinct; operations on unrelated fields and grids change nothing; times count from the origin of the FieldSet last completed. The full statement is false: adding a field to another FieldSet moves its entries (C89_entry_fails) or replaces its grid (C89_grid_fails), and completing that FieldSet shifts its times (C89_clock_fails)."
  },
  {
   "property": "C90",
   "status": "partial",
   "theorems": [
    "Parcels.Namespace.C90_add_field",
    "Parcels.Namespace.C90_keeps_partial",
    "Parcels.Namespace.C90_registered_partial",
    "Parcels.Namespace.C90_constant",
    "Parcels.Namespace.C90_get_fields",
    "Parcels.Namespace.C90_complete",
    "Parcels.Namespace.C90_constant_fails",
    "Parcels.Namespace.C90_vector_replaces_fails",
    "Parcels.Namespace.C90_vector_refused_fails",
    "Parcels.Namespace.C90_summed_vector_fails",
    "Parcels.Namespace.C90_add_field_refused_fails",
    "Parcels.Namespace.C90_renamed_fails"
   ],
   "note": "Proved: add_field binds a free name, refuses a taken one without a change, and registers; names keep their meaning through all programs without add_constant/add_vector_field of that name; everything reachable is registered in programs whose vector fields are VectorFields that were not refused; get_fields lists everything once. The full statement is false: add_constant and add_vector_field overwrite (C90_constant_fails, C90_vector_replaces_fails), calls that raise leave things behind (C90_vector_refused_fails, C90_add_field_refused_fails), SummedFields of VectorFields are not registered (C90_summed_vector_fails), and a field added under another name makes the FieldSet unusable (C90_renamed_fails)."
  },
  {
   "property": "C91",
   "status": "partial",
   "theorems": [
    "Parcels.Dispatch.C91_get_partial",
    "Parcels.Dispatch.C91_remove_partial",
    "Parcels.Dispatch.C91_isub_particle",
    "Parcels.Dispatch.C91_delete_partial",
    "Parcels.Dispatch.C91_remove_indices_partial",
    "Parcels.Dispatch.C91_int64_is_index",
    "Parcels.Dispatch.C91_int64_fresh_partial",
    "Parcels.Dispatch.C91_int64_fails",
    "Parcels.Dispatch.C91_ignored_fails",
    "Parcels.Dispatch.C91_pop_fails",
    "Parcels.Dispatch.C91_other_arguments"
   ],
   "note": "Proved: get, remove, delete with Python integers, np.int32, np.uint64 and particles, and with np.int64 on 32-bit platforms, act on exactly the particle meant or raise; -= with a particle; lists of indices. The full statement is false: on 64-bit platforms np.int64 IDs are taken for indices (C91_int64_is_index, C91_int64_fails), several calls silently do nothing (C91_ignored_fails), pop is not implemented (C91_pop_fails). Lists of IDs: see C17."
  },
  {
   "property": "C92",
   "status": "partial",
   "theorems": [
    "Parcels.ZonalCheck.C92_winding",
    "Parcels.ZonalCheck.C92_convention",
    "Parcels.ZonalCheck.C92_kept",
    "Parcels.ZonalCheck.C92_closed_scipy",
    "Parcels.ZonalCheck.C92_closed_jit_partial",
    "Parcels.ZonalCheck.C92_open_fails",
    "Parcels.ZonalCheck.C92_gap_fails",
    "Parcels.ZonalCheck.C92_first_row_fails"
   ],
   "note": "Proved: the check measures how far the longitudes go east, for every way of writing the same meridians (steps below 180 degrees); closed axes are recognised and every longitude of one turn is found (JIT: cells narrower than 135 degrees, at most 5000 longitudes). Fails: open global axes are recognised only with more than 3600 meridians, and longitudes in the gap are never found in either mode; on curvilinear grids only the first row counts. Simplification: rational longitudes."
  },
  {
   "property": "C93",
   "status": "partial",
   "theorems": [
    "Parcels.DepthFields.C93_same_grid",
    "Parcels.DepthFields.C93_same_times",
    "Parcels.DepthFields.C93_same_times_backward_partial",
    "Parcels.DepthFields.C93_in_memory",
    "Parcels.DepthFields.C93_missing_reported",
    "Parcels.DepthFields.C93_no_files_fails",
    "Parcels.DepthFields.C93_new_field_fails",
    "Parcels.DepthFields.C93_other_times_fails",
    "Parcels.DepthFields.C93_mixed_loading_fails"
   ],
   "note": "Proved: the depths follow on the same grid (every request, every history, periodic or not), on different grids with the same times (forward; backward from the states of C39), and in memory; missing depths are reported exactly when a field with files still waits for them. The full statement is false: with other times (C93_other_times_fails), with the depths in memory and the data deferred (C93_mixed_loading_fails), for fields without files (C93_no_files_fails), and after another field was put on the grid (C93_new_field_fails)."
  },
  {
   "property": "C94",
   "status": "partial",
   "theorems": [
    "Parcels.FloatTime.C94_events_partial",
    "Parcels.FloatTime.C94_output_partial",
    "Parcels.FloatTime.C94_release_partial",
    "Parcels.FloatTime.C94_particles_scipy_partial",
    "Parcels.FloatTime.C94_particles_jit_partial",
    "Parcels.FloatTime.C94_arrival_partial",
    "Parcels.FloatTime.C94_tenths_fails",
    "Parcels.FloatTime.C94_lost_interval_fails",
    "Parcels.FloatTime.C94_lost_step_fails"
   ],
   "note": "Proved for every rounding with relative error 2^-53 that leaves 53-bit integers times powers of two alone (double precision is one: f64_double), when all times, steps and intervals are multiples of 2^k seconds (k \u2265 -24, whole seconds for instance) and not above 2^52 of these units: the rounded event loop and the rounded particle loops of both modes are equal to the exact ones, so C01, C10, C11 hold in double precision. The full statement is false: with tenths of a second output is written just before the end and again at the end (C94_tenths_fails), and intervals or steps lost in rounding make execute run for ever (C94_lost_interval_fails, C94_lost_step_fails)."
  },
  {
   "property": "C95",
   "status": "proved",
   "theorems": [
    "Parcels.FloatAdvect.C95_ee",
    "Parcels.FloatAdvect.C95_rk4",
    "Parcels.FloatAdvect.C95_rk4_3D",
    "Parcels.FloatAdvect.C95_drift_lost"
   ],
   "note": "For every arithmetic whose roundings have relative error at most eps (JIT mode in single precision: 2^-24; Scipy mode in double precision: 2^-53; both shown). Times are on ticks as in C94. The evaluation of the field enters through delta. C95_drift_lost shows that the growth with n is attained: in single precision a particle at 170 degrees in a current of a millimetre per second with steps of five minutes never moves."
  },
  {
   "property": "C96",
   "status": "partial",
   "theorems": [
    "Parcels.FloatSample.C96_precisions",
    "Parcels.FloatSample.C96_fits",
    "Parcels.FloatSample.C96_search_scipy_partial",
    "Parcels.FloatSample.C96_search_jit_partial",
    "Parcels.FloatSample.C96_sample_scipy_partial",
    "Parcels.FloatSample.C96_sample_jit_partial",
    "Parcels.FloatSample.C96_time_scipy_partial",
    "Parcels.FloatSample.C96_time_jit_partial",
    "Parcels.FloatSample.C96_double_fails",
    "Parcels.FloatSample.C96_dateline_fails"
   ],
   "note": "Proved in single precision on every ordinary grid (increasing axes, no halo, depths monotone), in double precision if the widths of the cells are single-precision numbers; in JIT mode on flat meshes. False in two cases. In double precision (lonlatdepth_dtype=np.float64) widths of cells are computed in single precision: relative coordinates next to a node come out above 1, and sampling raises a sampling error (C96_double_fails). On a spherical mesh across the date line, adding and subtracting 360 degrees in single precision moves the last longitude, and a particle on it raises IndexError in Scipy mode (C96_dateline_fails). Missing: other interpolation methods, curvilinear grids, periodic fields."
  },
  {
   "property": "C97",
   "status": "proved",
   "theorems": [
    "Parcels.WholeRun.C97_run",
    "Parcels.WholeRun.C97_records",
    "Parcels.WholeRun.C97_raises",
    "Parcels.WholeRun.C97_ends",
    "Parcels.WholeRun.C97_rk4",
    "Parcels.WholeRun.C97_uniform",
    "Parcels.WholeRun.C97_off_grid_fails"
   ],
   "note": "For runs in which the end, the outputs and other interruptions, the times of the data and the starts of the particles are whole numbers of steps of more than 1e-8 s away from the start, as the property says, and for kernels that compute the new variables from time, step and variables of their particle (AdvectionRK4 among them). Without whole numbers of steps it is false: the last step before an interruption is shortened, so that positions depend on the output interval (C97_off_grid_fails). Outside the model: kernels that read other particles or random numbers or that change dt, repeated release (C11, C59), variables that are written once and write_ondelete (C16, C20), rounding (C94-C96)."
  },
  {
   "property": "C98",
   "status": "partial",
   "theorems": [
    "Parcels.WholeRun.C98_split_partial",
    "Parcels.WholeRun.C98_records_partial",
    "Parcels.WholeRun.C98_empty_fails",
    "Parcels.WholeRun.C98_late_fails",
    "Parcels.WholeRun.C98_output_fails"
   ],
   "note": "Proved, under the conditions of C97, if some particle is under way at the end of the first run, and for the output if the first run ends at an output time. False otherwise: when all particles have been deleted the second call fails with ValueError (C98_empty_fails); when only particles are left that start later, runtime counts from their start (C98_late_fails); when the first run does not end at an output time, the second has other output times (C98_output_fails)."
  },
  {
   "property": "C99",
   "status": "proved",
   "theorems": [
    "Parcels.GridRun.C99_sample",
    "Parcels.GridRun.C99_covers",
    "Parcels.GridRun.C99_scipy",
    "Parcels.GridRun.C99_jit",
    "Parcels.GridRun.C99_values",
    "Parcels.GridRun.C99_modes",
    "Parcels.GridRun.C99_modes_raise",
    "Parcels.GridRun.C99_rk4",
    "Parcels.GridRun.C99_uniform"
   ],
   "note": "Under the conditions of C97 and in exact arithmetic. Outside the model: other grids and methods (C24-C33 have the sampling alone), deferred loading (C39, C40), fields periodic in time, kernels with random numbers, rounding (C94-C96). That the generated C code computes what the Python kernel computes is C44 and C45."
  },
  {
   "property": "C100",
   "status": "partial",
   "theorems": [
    "Parcels.DeferRun.C100_scipy_follows",
    "Parcels.DeferRun.C100_jit_follows",
    "Parcels.DeferRun.C100_scipy_partial",
    "Parcels.DeferRun.C100_jit_partial",
    "Parcels.DeferRun.C100_ends",
    "Parcels.DeferRun.C100_kernels",
    "Parcels.DeferRun.C100_seconds_fails",
    "Parcels.DeferRun.C100_off_grid_fails",
    "Parcels.DeferRun.C100_end_fails",
    "Parcels.DeferRun.C100_backward_fails"
   ],
   "note": "Proved for fields that are not periodic, under the conditions of C99 (flat rectilinear grids, linear interpolation, exact arithmetic), if the snapshots are whole numbers of steps after the start of the run, and whole seconds after it unless a second is a whole number of steps; if the run does not leave the series or extrapolation is allowed; and, backward in time, if it starts at a snapshot, outside the series, or between snapshots that are in memory. False without each of these conditions (witnesses): steps are split, execute fails instead of calling the recovery functions, or the wrong snapshots are used. Missing: periodic fields, other grids and methods."
  },
  {
   "property": "C101",
   "status": "partial",
   "theorems": [
    "Parcels.SphereRun.C101_sample",
    "Parcels.SphereRun.C101_sample_regional",
    "Parcels.SphereRun.C101_values",
    "Parcels.SphereRun.C101_scipy",
    "Parcels.SphereRun.C101_jit",
    "Parcels.SphereRun.C101_modes",
    "Parcels.SphereRun.C101_modes_raise",
    "Parcels.SphereRun.C101_global",
    "Parcels.SphereRun.C101_uniform",
    "Parcels.SphereRun.C101_dateline_fails",
    "Parcels.SphereRun.C101_modes_fails",
    "Parcels.SphereRun.C101_tutorial_fails"
   ],
   "note": "Proved in exact arithmetic, for every function in place of the cosine, for linear interpolation: samples and runs follow the interpolated values in degrees at the longitudes where both modes look, and on regional grids nowhere else; the two modes agree on regional grids, and on any grid for particles that stay on the axis; with a halo as wide as the longest step and the periodic kernel with the true period, runs follow the trajectories on the globe up to full turns, final particles and records. False (witnesses): across the date line on an axis with a jump (the range check refuses the cell with the jump); agreement of the modes east of a global axis without halo; the periodic kernel with the bounds of the tutorial on open global axes. Missing: curvilinear grids, other interpolation methods."
  },
  {
   "property": "C102",
   "status": "partial",
   "theorems": [
    "Parcels.ReleaseRun.C102_run",
    "Parcels.ReleaseRun.C102_records",
    "Parcels.ReleaseRun.C102_raises",
    "Parcels.ReleaseRun.C102_ends",
    "Parcels.ReleaseRun.C102_delayed",
    "Parcels.ReleaseRun.C102_split_partial",
    "Parcels.ReleaseRun.C102_first",
    "Parcels.ReleaseRun.C102_given_fails",
    "Parcels.ReleaseRun.C102_output_fails"
   ],
   "note": "Proved for every scheme of one step, both modes, both directions: final particles, records, errors and termination of runs with repeated release, equality with the run in which all particles are there from the start, and splitting (given that some particle is under way at the end of the first run). False for the positions given to the constructor: in the first run the released particles start where the first particles are at the first interruption (C102_first), and this depends on the output interval (witnesses). Missing: intervals that are not whole numbers of steps; in the first run, particles whose trajectory ends before the first interruption."
  },
  {
   "property": "C103",
   "status": "proved",
   "theorems": [
    "Parcels.RandomRun.C103_run",
    "Parcels.RandomRun.C103_records",
    "Parcels.RandomRun.C103_raises",
    "Parcels.RandomRun.C103_ends",
    "Parcels.RandomRun.C103_modes",
    "Parcels.RandomRun.C103_split",
    "Parcels.RandomRun.C103_single",
    "Parcels.RandomRun.C103_repair",
    "Parcels.RandomRun.C103_output_fails",
    "Parcels.RandomRun.C103_particles_fails"
   ],
   "note": "Proved for every scheme of one step that draws from a generator (any type of states), both modes, both directions. C103_repair is a single case with a recovery function that draws and lets the particle go on. C103_output_fails and C103_particles_fails are the limits named in the statement: with several particles the trajectories change with the output interval, and with the other particles. Both modes are taken to share one generator (rand of the C library, which random.h calls in all compiled libraries) and to compute with exact numbers."
  },
  {
   "property": "C104",
   "status": "partial",
   "theorems": [
    "Parcels.ErrorReport.C104_scipy_partial",
    "Parcels.ErrorReport.C104_jit_partial",
    "Parcels.ErrorReport.C104_stops",
    "Parcels.ErrorReport.C104_equator_fails",
    "Parcels.ErrorReport.C104_surface_fails",
    "Parcels.ErrorReport.C104_time_fails",
    "Parcels.ErrorReport.C104_stale_fails",
    "Parcels.ErrorReport.C104_step_fails"
   ],
   "note": "Proved for whole runs in both modes and both directions: the run stops if and only if a particle fails, and the message is about the first particle that does not reach the next interruption, with its identifier, position and time before the step that failed. The point at which the field was sampled is given in Scipy mode for errors out of bounds with nonzero longitude and latitude only; witnesses: points on the equator, errors at the surface, errors in time (the time of the particle is given instead), errors after an earlier recovered one (AttributeError), a kernel that changes dt and raises. Missing: fields that are loaded during the run; intervals that are not whole numbers of steps."
  },
  {
   "property": "C105",
   "status": "partial",
   "theorems": [
    "Parcels.ExportRun.C105_export_partial",
    "Parcels.ExportRun.C105_times",
    "Parcels.ExportRun.C105_path_fails"
   ],
   "note": "Proved for whole runs in both modes and both directions, for every exported variable. Restrictions: intervals are whole numbers of steps (as in C97); the set is in order of identifiers; a new file is used for the run and lonlatdepth_dtype plays no role; variables that are written once are not among the exported ones here (C20). False if the path of the temporary files contains 'once' (C105_path_fails)."
  },
  {
   "property": "C106",
   "status": "partial",
   "theorems": [
    "Parcels.ExportRun.C106_set",
    "Parcels.ExportRun.C106_restart_partial",
    "Parcels.ExportRun.C106_late_fails",
    "Parcels.ExportRun.C106_backward_fails"
   ],
   "note": "Proved, under the conditions of C105, when all particles have started and one is under way at the end of the first run, the variables on which the kernel depends are written at each output time, and the restart time is given or the run goes forward. False for particles that start later (they are not in the file: C106_late_fails) and for backward runs with the default restart time (C106_backward_fails)."
  },
  {
   "property": "C107",
   "status": "partial",
   "theorems": [
    "Parcels.JitData.C107_fields_partial",
    "Parcels.JitData.C107_coords",
    "Parcels.JitData.C107_times",
    "Parcels.JitData.C107_halo_fails",
    "Parcels.JitData.C107_double_fails",
    "Parcels.JitData.C107_other_fails"
   ],
   "note": "Proved for fields with data in one NumPy array, for all memory layouts and all histories in which the user keeps the shapes and types of the arrays and executes kernels with particle sets on the kernel's FieldSet. False otherwise: after add_periodic_halo (or any change of shape) on a field that has been used, the compiled code uses the old sizes (C107_halo_fails); data of 64 bits are read as 32 bits (C107_double_fails); with a particle set on another FieldSet old data are read (C107_other_fails). Blocks of Dask arrays: C47, C88."
  },
  {
   "property": "C108",
   "status": "proved",
   "theorems": [
    "Parcels.RepairRun.C108_run",
    "Parcels.RepairRun.C108_records",
    "Parcels.RepairRun.C108_raises",
    "Parcels.RepairRun.C108_ends",
    "Parcels.RepairRun.C108_endless"
   ],
   "note": "Proved for every scheme of one step and all recovery functions that assign variables and let the particle go on, or else delete it (or else raise), in both modes and both directions, under the conditions of C97 on the times. Recovery functions that change the time or the dt of the particle are not covered."
  },
  {
   "property": "C109",
   "status": "proved",
   "theorems": [
    "Parcels.PathRun.C109_run",
    "Parcels.PathRun.C109_end",
    "Parcels.PathRun.C109_records",
    "Parcels.PathRun.C109_raises",
    "Parcels.PathRun.C109_invariant",
    "Parcels.PathRun.C109_exact",
    "Parcels.PathRun.C109_exact_end_fails"
   ],
   "note": "Proved for every scheme of one step, for all recovery functions that assign variables and let the particle go on, or else delete it (or else raise), in both modes and both directions, without any condition on the times. That the run returns is not part of the statement (C97 and C108 show it for regular times; C12 for the event loop). C109_exact_end_fails: the times at the end may differ from the end of the run by up to 1e-8 s. Repeated release (C102) and recovery functions that change the time or the dt of the particle are not covered."
  },
  {
   "property": "C110",
   "status": "partial",
   "theorems": [
    "Parcels.AdaptiveRun.C110_run",
    "Parcels.AdaptiveRun.C110_end_partial",
    "Parcels.AdaptiveRun.C110_arrive",
    "Parcels.AdaptiveRun.C110_records",
    "Parcels.AdaptiveRun.C110_raises",
    "Parcels.AdaptiveRun.C110_rk45",
    "Parcels.AdaptiveRun.C110_rk45_stuck",
    "Parcels.AdaptiveRun.C110_uniform",
    "Parcels.AdaptiveRun.C110_left_behind_fails"
   ],
   "note": "Proved for every adaptive kernel whose next step after an accepted one is not shorter and whose steps stay in the direction of the run, of which AdvectionRK45 is one (C110_rk45), in both modes and both directions, without any condition on the times. False is that all particles arrive: C110_left_behind_fails, where a step of at most 1e-8 s is asked for, the particle is left behind without any error; C110_arrive: only there; C110_rk45_stuck: for AdvectionRK45 only where a step of at most 2e-8 s is not within tolerance. That the run returns is not part of the statement. Exact numbers in place of floats."
  },
  {
   "property": "C111",
   "status": "partial",
   "theorems": [
    "Parcels.DriftRun.C111_scipy",
    "Parcels.DriftRun.C111_jit",
    "Parcels.DriftRun.C111_distance",
    "Parcels.DriftRun.C111_flow",
    "Parcels.DriftRun.C111_kernels",
    "Parcels.DriftRun.C111_rk45_partial",
    "Parcels.DriftRun.C111_rk45_fails"
   ],
   "note": "Proved for AdvectionEE, AdvectionRK4 and AdvectionRK4_3D in both modes (C111_scipy, C111_jit) on the grids of C99: rectilinear, linear interpolation, flat mesh, data in memory, without periodic time. False for AdvectionRK45: C111_rk45_fails, a particle moves 1.0001 in a second in which no velocity exceeds 1; C111_rk45_partial: the bounds hold up to 1e-4, for all flows. Recovery functions delete or raise (one that moves the particle can take it anywhere). Exact numbers in place of floats."
  },
  {
   "property": "C112",
   "status": "partial",
   "theorems": [
    "Parcels.NestRun.C112_value",
    "Parcels.NestRun.C112_same",
    "Parcels.NestRun.C112_first",
    "Parcels.NestRun.C112_found_partial",
    "Parcels.NestRun.C112_values",
    "Parcels.NestRun.C112_scipy",
    "Parcels.NestRun.C112_jit",
    "Parcels.NestRun.C112_scipy_path",
    "Parcels.NestRun.C112_jit_path",
    "Parcels.NestRun.C112_modes",
    "Parcels.NestRun.C112_modes_raise",
    "Parcels.NestRun.C112_rk4",
    "Parcels.NestRun.C112_surface_fails",
    "Parcels.NestRun.C112_time_fails"
   ],
   "note": "Every value sampled is that of the first field of the list that covers position and time (C112_first), and the runs are those of the kernel with the sampled values, the same in both modes (C112_scipy, C112_jit, C112_scipy_path, C112_jit_path, C112_modes, C112_modes_raise). False: that a sample fails only where no field covers the position. An earlier field that starts below the position (C112_surface_fails) or whose data have ended, even if the position is outside it (C112_time_fails), stops the search. C112_found_partial: without these two cases the first field that covers is sampled. Grids as in C99: rectilinear, linear interpolation, flat mesh, data in memory, without periodic time. Exact numbers in place of floats."
  },
  {
   "property": "C113",
   "status": "partial",
   "theorems": [
    "Parcels.PeriodRun.C113_sample",
    "Parcels.PeriodRun.C113_always",
    "Parcels.PeriodRun.C113_values",
    "Parcels.PeriodRun.C113_scipy",
    "Parcels.PeriodRun.C113_jit",
    "Parcels.PeriodRun.C113_modes",
    "Parcels.PeriodRun.C113_modes_raise",
    "Parcels.PeriodRun.C113_later_scipy",
    "Parcels.PeriodRun.C113_later_jit",
    "Parcels.PeriodRun.C113_kernels",
    "Parcels.PeriodRun.C113_open_fails"
   ],
   "note": "Samples are the periodic values at all times (C113_sample, C113_always), runs are those of the kernel with these values, the same in both modes (C113_scipy, C113_jit, C113_modes, C113_modes_raise), and runs a whole number of periods later are the same (C113_later_scipy, C113_later_jit, with recovery functions that delete; C113_kernels: the advection kernels qualify). False if the data at the last time differ from those at the first (C113_open_fails: the modes differ). Fields whose time axis the constructor extends to the period are not covered (there C33_last_interval_fails and C33_jit_never_ends_fails hold). Grids as in C99: rectilinear, linear interpolation, flat mesh, data in memory. Exact numbers in place of floats."
  },
  {
   "property": "C114",
   "status": "partial",
   "theorems": [
    "Parcels.Advance.C114_grid",
    "Parcels.Advance.C114_grid_raises",
    "Parcels.Advance.C114_field_partial",
    "Parcels.Advance.C114_never_fails",
    "Parcels.Advance.C114_data_fails",
    "Parcels.Advance.C114_first",
    "Parcels.Advance.C114_moved_fails",
    "Parcels.Advance.C114_samples_fails",
    "Parcels.Advance.C114_again_fails"
   ],
   "note": "False of the code: fieldset.advancetime raises whenever the new field set has a field (C114_never_fails: isinstance with one argument), no data are ever replaced (C114_data_fails), but the times of the first grid have been advanced, so that every snapshot has the date of the next one (C114_moved_fails, C114_samples_fails), and the new grid's times have been changed without its origin (C114_again_fails). True: grid.advancetime replaces the dates as it should or raises and leaves the grid as it is (C114_grid, C114_grid_raises), and the rest of field.advancetime would replace the data (C114_field_partial). Nested and summed fields are not modelled; both grids use the same calendar; exact numbers in place of floats."
  },
  {
   "property": "C115",
   "status": "partial",
   "theorems": [
    "Parcels.SumRun.C115_scipy_value",
    "Parcels.SumRun.C115_covers",
    "Parcels.SumRun.C115_jit_value_partial",
    "Parcels.SumRun.C115_swallow_fails",
    "Parcels.SumRun.C115_values",
    "Parcels.SumRun.C115_scipy",
    "Parcels.SumRun.C115_jit_partial",
    "Parcels.SumRun.C115_jit_covered",
    "Parcels.SumRun.C115_modes_partial",
    "Parcels.SumRun.C115_modes_raise_partial",
    "Parcels.SumRun.C115_run_fails"
   ],
   "note": "Scipy mode: samples are the sums, fail exactly where one field does not cover, and runs are those of the kernel with the sums (C115_scipy_value, C115_covers, C115_scipy). JIT mode: the same for sums of scalar fields, and for sums of vector fields under the condition that all fields cover wherever the last does (C115_jit_value_partial, C115_jit_partial, C115_modes_partial, C115_modes_raise_partial), or if no trajectory leaves any of the fields (C115_jit_covered). False without it: only the status of the last vector field is checked, so that particles outside the others go on with what the temporaries happened to hold (C115_swallow_fails, C115_run_fails). Grids as in C99: rectilinear, linear interpolation, flat mesh, data in memory, without periodic time. Exact numbers in place of floats."
  },
  {
   "property": "C116",
   "status": "proved",
   "theorems": [
    "Parcels.UnitRun.C116_sample",
    "Parcels.UnitRun.C116_scipy",
    "Parcels.UnitRun.C116_jit",
    "Parcels.UnitRun.C116_raise_scipy",
    "Parcels.UnitRun.C116_raise_jit",
    "Parcels.UnitRun.C116_kernels"
   ],
   "note": "About the model of runs on gridded data of C99 (rectilinear grids with z levels, linear interpolation, flat mesh, data in memory, not periodic in time), with exact numbers in place of floats. Runs are regular (C97) in both units, which includes steps of more than 1e-8 s: the comparisons of times in the loops have absolute tolerances."
  },
  {
   "property": "C117",
   "status": "partial",
   "theorems": [
    "Parcels.TurnRun.C117_sample",
    "Parcels.TurnRun.C117_scipy",
    "Parcels.TurnRun.C117_jit",
    "Parcels.TurnRun.C117_raise_scipy",
    "Parcels.TurnRun.C117_raise_jit",
    "Parcels.TurnRun.C117_complete_scipy",
    "Parcels.TurnRun.C117_complete_jit",
    "Parcels.TurnRun.C117_kernels",
    "Parcels.TurnRun.C117_dateline_fails"
   ],
   "note": "Proved if all longitudes of the axes and of the particles are moved by the same angle (C117_scipy, C117_jit, C117_raise_scipy, C117_raise_jit for regional grids; C117_complete_scipy, C117_complete_jit for all grids if no trajectory leaves the data). False if only some of them are, as when the axis starts again at -180 after 180: particles between the last longitude before and the first after the jump are lost (C117_dateline_fails). Grids as in C101: rectilinear, linear interpolation, data in memory. Exact numbers in place of floats; the cosine of the latitude is any function."
  },
  {
   "property": "C118",
   "status": "partial",
   "theorems": [
    "Parcels.ReleaseGrid.C118_plain",
    "Parcels.ReleaseGrid.C118_plain_raise",
    "Parcels.ReleaseGrid.C118_plain_first",
    "Parcels.ReleaseGrid.C118_periodic",
    "Parcels.ReleaseGrid.C118_periodic_raise",
    "Parcels.ReleaseGrid.C118_periodic_first",
    "Parcels.ReleaseGrid.C118_nested",
    "Parcels.ReleaseGrid.C118_nested_raise",
    "Parcels.ReleaseGrid.C118_nested_first",
    "Parcels.ReleaseGrid.C118_summed_partial",
    "Parcels.ReleaseGrid.C118_summed_raise_partial",
    "Parcels.ReleaseGrid.C118_summed_first_partial",
    "Parcels.ReleaseGrid.C118_sphere_partial",
    "Parcels.ReleaseGrid.C118_sphere_raise_partial",
    "Parcels.ReleaseGrid.C118_sphere_first_partial"
   ],
   "note": "For runs in which releases and outputs are whole numbers of steps. Proved for given values of release, and for the first run of a set, in which the released values are those after the first stop (see C102), equally in both modes. Restrictions: summed vector fields in JIT mode as in C115 (all members cover wherever the last does), spherical meshes only if they do not go around the globe (see C101). Rectilinear grids, linear interpolation, data in memory; exact numbers in place of floats."
  },
  {
   "property": "C119",
   "status": "partial",
   "theorems": [
    "Parcels.Plot.C119_node",
    "Parcels.Plot.C119_all",
    "Parcels.Plot.C119_shows",
    "Parcels.Plot.C119_title",
    "Parcels.Plot.C119_cells",
    "Parcels.Plot.C119_tracer",
    "Parcels.Plot.C119_vector_partial",
    "Parcels.Plot.C119_domain_partial",
    "Parcels.Plot.C119_domain_edge",
    "Parcels.Plot.C119_extrap_fails",
    "Parcels.Plot.C119_vector_fails",
    "Parcels.Plot.C119_zero_fails",
    "Parcels.Plot.C119_cgrid_north_fails",
    "Parcels.Plot.C119_default_fails"
   ],
   "note": "Proved for rectilinear grids with z levels on flat meshes. False in these cases: outside the times of a field that is extrapolated in time (the display is refused); velocities of which the components have different periods; cells with a corner that is exactly 0; velocities on C-grids (the second component is made from the first); domains (the display ends before the northern and eastern limits); default domains on curvilinear grids with z levels (columns are missing) and on rectilinear grids with s levels (IndexError)."
  },
  {
   "property": "C120",
   "status": "partial",
   "theorems": [
    "Parcels.CGridRun.C120_scipy",
    "Parcels.CGridRun.C120_jit_partial",
    "Parcels.CGridRun.C120_raise",
    "Parcels.CGridRun.C120_modes_partial",
    "Parcels.CGridRun.C120_face",
    "Parcels.CGridRun.C120_modes_fails"
   ],
   "note": "Proved for rectilinear grids with z levels on flat meshes, horizontal velocity, exact arithmetic. In JIT mode cells must not be wider than 180 (C51_flat_jit_fails). The modes agree inside cells; on the boundary between rows (columns, levels) the component along it is that of either side, in JIT mode according to the remembered cell, so that the modes can differ (C120_modes_fails)."
  },
  {
   "property": "C121",
   "status": "partial",
   "theorems": [
    "Parcels.CGridRun.C121_scipy",
    "Parcels.CGridRun.C121_jit_partial",
    "Parcels.CGridRun.C121_raises",
    "Parcels.CGridRun.C121_step_partial",
    "Parcels.CGridRun.C121_kernels",
    "Parcels.CGridRun.C121_uniform",
    "Parcels.CGridRun.C121_speed",
    "Parcels.CGridRun.C121_modes_fails"
   ],
   "note": "Proved for rectilinear grids with z levels on flat meshes, horizontal velocity, exact arithmetic, kernels that sample the velocity only. In JIT mode cells must not be wider than 180 (C51_flat_jit_fails). Steps with samples off the nodes of the grid agree between the modes; a particle that comes to lie exactly on the boundary between two rows goes on with the velocity of the row it came from in JIT mode and with that of the southern one in Scipy mode, so that whole runs differ (C121_modes_fails)."
  },
  {
   "property": "C122",
   "status": "partial",
   "theorems": [
    "Parcels.XArray.C122_values_partial",
    "Parcels.XArray.C122_makes_partial",
    "Parcels.XArray.C122_settings_partial",
    "Parcels.XArray.C122_alone",
    "Parcels.XArray.C122_dataset_partial",
    "Parcels.XArray.C122_order_fails",
    "Parcels.XArray.C122_units_fails",
    "Parcels.XArray.C122_periodic_fails",
    "Parcels.XArray.C122_extrapolation_fails",
    "Parcels.XArray.C122_fieldtype_fails",
    "Parcels.XArray.C122_dataset_fails"
   ],
   "note": "Proved for data variables whose dimensions are in the order time, depth, lat, lon (or reversed, with transpose), coordinates as vectors or matrices, exact arithmetic. False of the code: other orders of dimensions are not noticed if the lengths fit (C122_order_fails); times with the attribute Unit are not decoded if dimensions are given per variable (C122_units_fails); time_periodic is ignored (C122_periodic_fails); one record extrapolates although time is given (C122_extrapolation_fails); a dictionary for fieldtype raises (C122_fieldtype_fails); the caller's dataset is changed (C122_dataset_fails)."
  },
  {
   "property": "C123",
   "status": "partial",
   "theorems": [
    "Parcels.Loggers.C123_first",
    "Parcels.Loggers.C123_once",
    "Parcels.Loggers.C123_plain_partial",
    "Parcels.Loggers.C123_plain_fails",
    "Parcels.Loggers.C123_arguments_fails"
   ],
   "note": "Exactly once is proved in full for each text. False of the code: other messages with a text that was shown once are suppressed, even errors (C123_plain_fails); messages are compared before their arguments are put in (C123_arguments_fails)."
  },
  {
   "property": "C124",
   "status": "partial",
   "theorems": [
    "Parcels.RngLib.C124_use_partial",
    "Parcels.RngLib.C124_found",
    "Parcels.RngLib.C124_files",
    "Parcels.RngLib.C124_left_fails",
    "Parcels.RngLib.C124_removed_fails"
   ],
   "note": "False of the code: __del__ unloads first and remove_lib removes files of a loaded library only, so files always stay (C124_left_fails); after remove_lib and unload_lib the library is not compiled again (C124_removed_fails)."
  },
  {
   "property": "C125",
   "status": "partial",
   "theorems": [
    "Parcels.Timer.C125_counts",
    "Parcels.Timer.C125_calls",
    "Parcels.Timer.C125_nonneg",
    "Parcels.Timer.C125_share_partial",
    "Parcels.Timer.C125_share_fails"
   ],
   "note": "Readings, calls and signs are proved in full. The comparison with the parent is false of the code when a timer is stopped while one of its children runs (C125_share_fails); it is proved for histories without that."
  },
  {
   "property": "C126",
   "status": "proved",
   "theorems": [
    "Parcels.Shapes.C126_exact",
    "Parcels.Shapes.C126_corners",
    "Parcels.Shapes.C126_between",
    "Parcels.Shapes.C126_jacobian",
    "Parcels.Shapes.C126_derivatives",
    "Parcels.Shapes.C126_used"
   ],
   "note": "Over every (ordered) field; rounding is not modelled. The 3D Jacobians are those of C73."
  },
  {
   "property": "C127",
   "status": "partial",
   "theorems": [
    "Parcels.ReleaseDates.C127_dates_partial",
    "Parcels.ReleaseDates.C127_plain",
    "Parcels.ReleaseDates.C127_refused",
    "Parcels.ReleaseDates.C127_compare",
    "Parcels.ReleaseDates.C127_mixed_fails",
    "Parcels.ReleaseDates.C127_no_calendar_fails"
   ],
   "note": "False of the code: in lists that begin with None or a number, dates of Python are not converted, and None after a date becomes nan (C127_mixed_fails); a fieldset without dates accepts dates and durations and hands them on unconverted (C127_no_calendar_fails). Lists that mix np.datetime64 with other values, which NumPy converts first, are outside the model."
  },
  {
   "property": "C128",
   "status": "partial",
   "theorems": [
    "Parcels.Indent.C128_indented_partial",
    "Parcels.Indent.C128_kept",
    "Parcels.Indent.C128_less_fails"
   ],
   "note": "False of the code for lines with less indentation than the first, as Python allows inside brackets and strings: blanks inside the line are removed (C128_less_fails)."
  },
  {
   "property": "C129",
   "status": "partial",
   "theorems": [
    "Parcels.AutoChunks.C129_kept_partial",
    "Parcels.AutoChunks.C129_one_time_fails",
    "Parcels.AutoChunks.C129_depth_fails",
    "Parcels.AutoChunks.C129_flat_fails"
   ],
   "note": "False of the code: with one time per file and no levels the sizes are shifted by one axis (C129_one_time_fails); data without a depth axis of a field with several levels in the file (C129_depth_fails); data without time and depth get their names swapped (C129_flat_fails). That the dictionary is used for the next file is in the model of C86."
  },
  {
   "property": "C130",
   "status": "partial",
   "theorems": [
    "Parcels.Metadata.C130_close",
    "Parcels.Metadata.C130_script_partial",
    "Parcels.Metadata.C130_script_fails",
    "Parcels.Metadata.C130_after_fails"
   ],
   "note": "Proved for close in full (C130_close). False of the code: a message given after the last write is not in the file that the script makes (C130_script_fails); after an export messages are refused, and not in the file of a further export (C130_after_fails)."
  },
  {
   "property": "C131",
   "status": "partial",
   "theorems": [
    "Parcels.GetExamples.C131_complete_partial",
    "Parcels.GetExamples.C131_interrupted",
    "Parcels.GetExamples.C131_again_partial",
    "Parcels.GetExamples.C131_again_fails",
    "Parcels.GetExamples.C131_second_fails"
   ],
   "note": "Proved: an uninterrupted run into a new directory completes it (C131_complete_partial), and at every point of interruption at most one file is broken and earlier files are unchanged (C131_interrupted); download_files then fetches all missing files and breaks no other (C131_again_partial). False of the code: after an interruption neither the script nor download_files repairs the broken file (C131_again_fails); in one process a second directory misses the files that the first one had (C131_second_fails)."
  },
  {
   "property": "C132",
   "status": "partial",
   "theorems": [
    "Parcels.CompilerCmd.C132_passed",
    "Parcels.CompilerCmd.C132_optimisation",
    "Parcels.CompilerCmd.C132_compiler_partial",
    "Parcels.CompilerCmd.C132_mpicc_fails",
    "Parcels.CompilerCmd.C132_libs_fails",
    "Parcels.CompilerCmd.C132_rpath_fails"
   ],
   "note": "Proved: all arguments are passed on in an effective order (C132_passed) and the user's optimisation has precedence (C132_optimisation). False of the code: MPICC is never used (C132_mpicc_fails); the caller's list of libraries is changed (C132_libs_fails); the option for the path of libraries has a space that makes it ineffective (C132_rpath_fails)."
  },
  {
   "property": "C133",
   "status": "partial",
   "theorems": [
    "Parcels.Movie.C133_frames",
    "Parcels.Movie.C133_records",
    "Parcels.Movie.C133_longitude_partial",
    "Parcels.Movie.C133_longitude_fails"
   ],
   "note": "Frames and records in full (C133_frames, C133_records). Longitudes only from -180 to 540 (C133_longitude_partial); false of the code for all others (C133_longitude_fails)."
  }
 ]
}