# Axioms each theorem in MANIFEST.json depends on

Made with `#print axioms`.

## Classical.choice, Quot.sound, propext

- `Parcels.KernelLoop.C01_clock_never_passes_end`
- `Parcels.KernelLoop.C01_success_means_arrived`
- `Parcels.KernelLoop.C01_calls_evenly_spaced`
- `Parcels.KernelLoop.C01_loop_terminates`
- `Parcels.JitLoop.C01_jit_clock_never_passes_end`
- `Parcels.JitLoop.C01_jit_success_means_arrived`
- `Parcels.JitLoop.C01_jit_calls_evenly_spaced`
- `Parcels.JitLoop.C01_jit_loop_terminates`
- `Parcels.KernelLoop.C02_failed_call_leaves_no_trace`
- `Parcels.KernelLoop.C02_single_failure`
- `Parcels.JitLoop.C02_jit_failed_call_leaves_no_trace`
- `Parcels.KernelLoop.C03_each_particle_as_if_alone`
- `Parcels.KernelLoop.C03_set_runs_if_each_runs`
- `Parcels.KernelLoop.C03_permutation`
- `Parcels.JitLoop.C03_jit_each_particle_as_if_alone_partial`
- `Parcels.JitLoop.C03_jit_permutation_partial`
- `Parcels.JitLoop.C46_leak_fails`
- `Parcels.Recovery.C04_execute_leaves_no_pending_particle`
- `Parcels.JitExec.C04_jit_execute_leaves_no_pending_particle`
- `Parcels.Recovery.C06_runtime_zero_runs_twice`
- `Parcels.KernelLoop.C06_one_call_per_pass`
- `Parcels.JitLoop.C06_jit_one_call_per_pass`
- `Parcels.Recovery.C06_runtime_zero_once_partial`
- `Parcels.KernelLoop.C07_short_step_persists`
- `Parcels.KernelLoop.C07_user_dt_every_step_partial`
- `Parcels.KernelMerge.C08_early_return_skips_second`
- `Parcels.KernelMerge.C08_argument_names_differ`
- `Parcels.KernelMerge.C08_shared_names`
- `Parcels.Schedule.C09_stops_are_monotone_and_end_at_E`
- `Parcels.Schedule.C09_periodic_events_at_scheduled_times`
- `Parcels.Schedule.C09_no_input_time_skipped`
- `Parcels.Schedule.C09_exact_on_unit`
- `Parcels.Schedule.C10_output_times`
- `Parcels.Schedule.C10_output_times_exact`
- `Parcels.Schedule.C11_release_times`
- `Parcels.Schedule.C11_split_run`
- `Parcels.Schedule.C11_runtime_zero_releases`
- `Parcels.Schedule.C12_terminates_partial`
- `Parcels.Schedule.C12_zero_interval_never_ends`
- `Parcels.Schedule.C12_no_fieldset_backward_crashes`
- `Parcels.Collection.C13_unique_ids_partial`
- `Parcels.Collection.C14_arrays_aligned_partial`
- `Parcels.Collection.C15_add`
- `Parcels.Collection.C15_remove_indices`
- `Parcels.Collection.C15_remove_index`
- `Parcels.Collection.C15_remove_mask`
- `Parcels.Collection.C15_add_then_remove`
- `Parcels.Collection.C16_lookup_partial`
- `Parcels.Collection.C16_delete_marks_that_particle`
- `Parcels.Collection.C17_sorted_lookup_never_works`
- `Parcels.Collection.C17_unsorted_lookup_partial`
- `Parcels.Collection.C17_single_lookup_partial`
- `Parcels.Output.C18_at_most_one_record`
- `Parcels.Output.C18_record_is_active_or_deleted`
- `Parcels.Output.C19_once_exactly_once`
- `Parcels.Output.C20_deleted_particles_written_partial`
- `Parcels.Output.C20_deleted_right_after_write`
- `Parcels.Output.C20_first_particle_lost`
- `Parcels.Npy.C21_export_is_the_records`
- `Parcels.Npy.C21_once_column`
- `Parcels.Output.C21_run_then_export`
- `Parcels.Npy.C21_ranks_merge_to_serial`
- `Parcels.Npy.C21_once_in_path`
- `Parcels.Output.C22_once_only_with_records`
- `Parcels.Collection.C23_ranks_partition_the_particles`
- `Parcels.Collection.C23_repeated_release`
- `Parcels.Search.C24_scipy`
- `Parcels.Search.C24_scipy_3D`
- `Parcels.Search.C24_jit`
- `Parcels.Search.C24_scipy_and_jit_agree`
- `Parcels.Search.C24_zonal_halo_index_error`
- `Parcels.Search.C24_jit_3D`
- `Parcels.Search.C25_z_levels_scipy`
- `Parcels.Search.C25_s_levels_scipy`
- `Parcels.Search.C25_column_increasing`
- `Parcels.Search.C25_z_levels_jit`
- `Parcels.SLevels.C25_s_levels_jit`
- `Parcels.Search.C26_scipy_sound`
- `Parcels.Search.C26_scipy_found_partial`
- `Parcels.Search.C26_jit_sound`
- `Parcels.Search.C26_range_check_too_wide`
- `Parcels.Search.C26_more_than_one_turn`
- `Parcels.Search.C26_dateline_cell_rejected`
- `Parcels.Search.C26_jit_found_partial`
- `Parcels.Search.C26_scipy_found_3D_partial`
- `Parcels.Search.C26_jit_found_3D_partial`
- `Parcels.Search.C26_jit_wide_cell_fails`
- `Parcels.Curvilinear.C27_position_partial`
- `Parcels.Curvilinear.C27_inside_partial`
- `Parcels.Curvilinear.C27_error_partial`
- `Parcels.Curvilinear.C27_corners`
- `Parcels.Curvilinear.C27_found_partial`
- `Parcels.Curvilinear.C27_quarter_turn`
- `Parcels.Curvilinear.C27_rectangles`
- `Parcels.Curvilinear.C27_vertical_fails`
- `Parcels.Curvilinear.C27_stale_fails`
- `Parcels.Curvilinear.C27_degenerate_fails`
- `Parcels.Curvilinear.C27_small_fails`
- `Parcels.Curvilinear.C27_orientation_fails`
- `Parcels.Curvilinear.C28_step_iff`
- `Parcels.Curvilinear.C28_result_valid`
- `Parcels.Curvilinear.C28_flat_jit_partial`
- `Parcels.Curvilinear.C28_first_guess`
- `Parcels.Curvilinear.C28_scipy_fails`
- `Parcels.Interp.C29_scipy_2D`
- `Parcels.Interp.C29_jit_2D`
- `Parcels.Interp.C29_scipy_3D_partial`
- `Parcels.Interp.C29_jit_3D_partial`
- `Parcels.Interp.C29_between_2D`
- `Parcels.Interp.C29_between_3D`
- `Parcels.Interp.C29_exact_2D`
- `Parcels.Interp.C29_exact_3D`
- `Parcels.Interp.C29_at_node`
- `Parcels.Interp.C29_pop_lowest_layer`
- `Parcels.Interp.C29_mom5_top_layer`
- `Parcels.Interp.C29_scipy_spherical_2D_partial`
- `Parcels.Interp.C29_jit_spherical_2D_partial`
- `Parcels.Interp.C29_scipy_spherical_3D_partial`
- `Parcels.Interp.C29_jit_spherical_3D_partial`
- `Parcels.Interp.C29_spherical_modes_agree_2D_partial`
- `Parcels.Interp.C29_seam_history_fails`
- `Parcels.CurviField.C29_curvilinear_scipy_2D`
- `Parcels.CurviField.C29_curvilinear_scipy_3D_partial`
- `Parcels.CurviField.C29_curvilinear_jit_2D`
- `Parcels.CurviField.C29_curvilinear_jit_3D_partial`
- `Parcels.CurviField.C29_curvilinear_exact`
- `Parcels.CurviField.C29_curvilinear_linear_scipy_partial`
- `Parcels.CurviField.C29_curvilinear_linear_jit_partial`
- `Parcels.Interp.C30_scipy_2D`
- `Parcels.Interp.C30_jit_2D`
- `Parcels.Interp.C30_scipy_3D`
- `Parcels.Interp.C30_jit_3D_partial`
- `Parcels.Interp.C30_unique`
- `Parcels.Interp.C30_midway_differs`
- `Parcels.Interp.C30_pop_lowest_layer`
- `Parcels.Interp.C30_scipy_spherical_2D_partial`
- `Parcels.Interp.C30_jit_spherical_2D_partial`
- `Parcels.Interp.C30_scipy_spherical_3D_partial`
- `Parcels.Interp.C30_jit_spherical_3D_partial`
- `Parcels.CurviField.C30_curvilinear_scipy_partial`
- `Parcels.CurviField.C30_curvilinear_jit_partial`
- `Parcels.CurviField.C30_curvilinear_distance_fails`
- `Parcels.Interp.C31_jit_2D_partial`
- `Parcels.Interp.C31_jit_3D_partial`
- `Parcels.Interp.C31_scipy_2D_partial`
- `Parcels.Interp.C31_scipy_3D_partial`
- `Parcels.Interp.C31_weighted_mean`
- `Parcels.Interp.C31_jit_land_node`
- `Parcels.Interp.C31_scipy_2D_transposed`
- `Parcels.Interp.C31_scipy_3D_node`
- `Parcels.Interp.C31_scipy_small_values`
- `Parcels.TimeInterp.C32_scipy_inside`
- `Parcels.TimeInterp.C32_scipy_outside`
- `Parcels.TimeInterp.C32_jit_inside`
- `Parcels.TimeInterp.C32_jit_outside`
- `Parcels.TimeInterp.C33_scipy`
- `Parcels.TimeInterp.C33_scipy_value_partial`
- `Parcels.TimeInterp.C33_jit_partial`
- `Parcels.TimeInterp.C33_jit_value_partial`
- `Parcels.TimeInterp.C33_modes_agree`
- `Parcels.TimeInterp.C33_last_interval_fails`
- `Parcels.TimeInterp.C33_jit_never_ends_fails`
- `Parcels.TimeInterp.C33_jit_end_of_axis`
- `Parcels.TimeInterp.C33_nearly_equal_span`
- `Parcels.TimeInterp.C33_xarray_fails`
- `Parcels.FieldLists.C34_scipy_on_grids`
- `Parcels.FieldLists.C35_add_partial`
- `Parcels.FieldLists.C35_add_to_itself`
- `Parcels.Converters.C36_roundtrip`
- `Parcels.Converters.C36_modes_agree`
- `Parcels.Converters.C36_meaning`
- `Parcels.Converters.C36_unchanged`
- `Parcels.Converters.C37_order`
- `Parcels.Converters.C37_roundtrip_partial`
- `Parcels.Converters.C37_numpy_within_a_second`
- `Parcels.Converters.C37_subsecond_lost`
- `Parcels.Converters.C37_from_seconds`
- `Parcels.Halo.C38_increasing`
- `Parcels.Halo.C38_sampling_periodic`
- `Parcels.TimeChunk.C39_memory`
- `Parcels.TimeChunk.C39_forward`
- `Parcels.TimeChunk.C39_forward_samples`
- `Parcels.TimeChunk.C39_backward_partial`
- `Parcels.TimeChunk.C39_backward_samples_partial`
- `Parcels.TimeChunk.C39_periodic_partial`
- `Parcels.TimeChunk.C39_periodic_progress`
- `Parcels.TimeChunk.C39_backward_start_between`
- `Parcels.TimeChunk.C39_scipy_period_end`
- `Parcels.TimeChunk.C39_backward_periodic`
- `Parcels.TimeChunk.C39_loaded_at_once_differs`
- `Parcels.TimeChunk.C40_forward`
- `Parcels.TimeChunk.C40_forward_succeeds`
- `Parcels.TimeChunk.C40_backward_partial`
- `Parcels.TimeChunk.C40_stale_period`
- `Parcels.TimeChunk.C40_start_before`
- `Parcels.TimeChunk.C40_backward_periodic`
- `Parcels.Scaling.C41_no_factor`
- `Parcels.Scaling.C41_no_bounds_partial`
- `Parcels.Scaling.C41_agree_iff`
- `Parcels.Scaling.C41_zero`
- `Parcels.Scaling.C41_full_false`
- `Parcels.Scaling.C41_history_partial`
- `Parcels.Scaling.C41_late_false`
- `Parcels.Scaling.C41_once`
- `Parcels.GridSet.C42_stands_partial`
- `Parcels.GridSet.C42_same_coordinates_partial`
- `Parcels.GridSet.C42_reuse`
- `Parcels.GridSet.C42_auto`
- `Parcels.GridSet.C42_history_partial`
- `Parcels.GridSet.C42_time_false`
- `Parcels.GridSet.C42_mesh_false`
- `Parcels.Names.C43_distinct_partial`
- `Parcels.Names.C43_samples_partial`
- `Parcels.Codegen.C44_value_partial`
- `Parcels.Codegen.C44_truth_partial`
- `Parcels.Codegen.C44_or_in_and_fails`
- `Parcels.Codegen.C44_comparison_in_product_fails`
- `Parcels.Codegen.C44_comparison_of_comparison_fails`
- `Parcels.Codegen.C44_integer_division_fails`
- `Parcels.Codegen.C44_modulo_fails`
- `Parcels.Codegen.C44_float_modulo_fails`
- `Parcels.Codegen.C44_or_as_number_fails`
- `Parcels.Codegen.C45_kernel_partial`
- `Parcels.Codegen.C45_no_loops_partial`
- `Parcels.Codegen.C45_advection`
- `Parcels.Codegen.C45_swap_fails`
- `Parcels.Codegen.C45_while_fails`
- `Parcels.Codegen.C45_while_sample_fails`
- `Parcels.Codegen.C45_after_delete_fails`
- `Parcels.Codegen.C45_delete_if_sample_fails`
- `Parcels.Codegen.C45_if_summed_fails`
- `Parcels.Codegen.C45_short_circuit_fails`
- `Parcels.Codegen.C45_product_of_sum_fails`
- `Parcels.JitLoop.C46_same_steps_partial`
- `Parcels.JitLoop.C46_same_steps_back_partial`
- `Parcels.JitLoop.C46_tolerance_fails`
- `Parcels.JitLoop.C46_zero_dt_fails`
- `Parcels.JitLoop.C46_leak_fails`
- `Parcels.Chunks.C47_reads_datum_partial`
- `Parcels.Chunks.C47_history_partial`
- `Parcels.Chunks.C48_states`
- `Parcels.Chunks.C48_request_served`
- `Parcels.Chunks.C48_current`
- `Parcels.JitExec.C48_repeat_or_run`
- `Parcels.JitExec.C48_not_moved`
- `Parcels.JitExec.C48_same_as_in_memory`
- `Parcels.Advection.C49_uniform_step`
- `Parcels.Advection.C49_uniform_step3`
- `Parcels.Advection.C49_forward_backward`
- `Parcels.Advection.C49_forward_backward3`
- `Parcels.Advection.C49_backward_fails`
- `Parcels.Advection.C49_cubic_step`
- `Parcels.Advection.C49_uniform_run`
- `Parcels.Advection.C49_cubic_run`
- `Parcels.Advection.C49_methods`
- `Parcels.Advection.C49_orders`
- `Parcels.Advection.C49_linear`
- `Parcels.Advection.C50_accept`
- `Parcels.Advection.C50_loop`
- `Parcels.Advection.C50_left_behind_fails`
- `Parcels.CGrid.C51_rectangle_partial`
- `Parcels.CGrid.C51_uniform_partial`
- `Parcels.CGrid.C51_flux_partial`
- `Parcels.CGrid.C51_on_face_partial`
- `Parcels.CGrid.C51_continuous_partial`
- `Parcels.CGrid.C51_modes_sphere_partial`
- `Parcels.CGrid.C51_face_sphere_partial`
- `Parcels.CGrid.C51_rectangle_sphere_partial`
- `Parcels.CGrid.C51_flat_jit_fails`
- `Parcels.Density.C52_conserved`
- `Parcels.Density.C52_number`
- `Parcels.Density.C52_defined`
- `Parcels.Density.C52_relative`
- `Parcels.Density.C52_float32`
- `Parcels.Density.C52_float32_fails`
- `Parcels.Density.C52_array_fails`
- `Parcels.Layout.C53_layout`
- `Parcels.Rng.C54_random`
- `Parcels.Rng.C54_roundings`
- `Parcels.Rng.C54_uniform_partial`
- `Parcels.Rng.C54_uniform_low`
- `Parcels.Rng.C54_uniform_fails`
- `Parcels.Rng.C54_randint`
- `Parcels.Rng.C54_expovariate_partial`
- `Parcels.Rng.C54_expovariate_fails`
- `Parcels.Rng.C54_normalvariate_fails`
- `Parcels.Rng.C54_vonmises_partial`
- `Parcels.TimeChunk.C55_record_partial`
- `Parcels.TimeChunk.C55_extra_record_single`
- `Parcels.Restart.C56_records`
- `Parcels.Restart.C56_active_partial`
- `Parcels.Restart.C56_default_time`
- `Parcels.Restart.C56_deleted_returns_fails`
- `Parcels.Restart.C56_once_fails`
- `Parcels.Restart.C56_off_step_fails`
- `Parcels.Restart.C56_id_again_fails`
- `Parcels.Analytical.C57_exit_partial`
- `Parcels.Analytical.C57_blocked`
- `Parcels.Analytical.C57_path`
- `Parcels.Analytical.C57_cell_2D_partial`
- `Parcels.Analytical.C57_cell_3D_partial`
- `Parcels.Analytical.C57_backward_fails`
- `Parcels.Analytical.C57_on_face_fails`
- `Parcels.Analytical.C57_divergence_fails`
- `Parcels.Analytical.C57_sphere_fails`
- `Parcels.Analytical.C57_tolerance_fails`
- `Parcels.GridSet.C58_intersection`
- `Parcels.GridSet.C58_dates_partial`
- `Parcels.GridSet.C58_full_false`
- `Parcels.RepeatRelease.C59_releases_start_after_first_pass`
- `Parcels.RepeatRelease.C59_release_positions_wrong`
- `Parcels.RepeatRelease.C59_original_positions_partial`
- `Parcels.Recovery.C60_recovery_dictionary_is_changed`
- `Parcels.Precision.C61_precision_partial`
- `Parcels.Precision.C61_precision_fails`
- `Parcels.Output.C62_deleted_between_outputs`
- `Parcels.Output.C62_write_ondelete`
- `Parcels.Output.C62_same_particles_partial`
- `Parcels.Output.C63_warning_raises`
- `Parcels.Output.C63_write_succeeds_partial`
- `Parcels.Interp.C64_scipy_pop`
- `Parcels.Interp.C64_jit_pop_partial`
- `Parcels.Interp.C64_scipy_mom5_velocity_partial`
- `Parcels.Interp.C64_mom5_tracer_layer`
- `Parcels.GridSet.C65_same_date_partial`
- `Parcels.GridSet.C65_single`
- `Parcels.GridSet.C65_full_false`
- `Parcels.Advection.C66_no_diffusion`
- `Parcels.Advection.C66_uniform_diffusion`
- `Parcels.Advection.C66_mean_drift`
- `Parcels.Advection.C66_backward_fails`
- `Parcels.Layout.C67_backup_uint64_fails`
- `Parcels.Curvilinear.C68_range`
- `Parcels.Curvilinear.C68_linear_partial`
- `Parcels.Curvilinear.C68_linear_fails`
- `Parcels.Load.C69_array`
- `Parcels.Load.C69_direct_partial`
- `Parcels.Load.C69_direct_loads_partial`
- `Parcels.Load.C69_deferred_partial`
- `Parcels.Load.C69_deferred_loads_partial`
- `Parcels.Load.C69_reused_grid_fails`
- `Parcels.Load.C69_single_depth_fails`
- `Parcels.Load.C69_shared_grid_fails`
- `Parcels.Load.C69_tolerance_fails`
- `Parcels.Load.C69_pop_deferred_fails`
- `Parcels.Load.C69_mom5_short_fails`
- `Parcels.Load.C70_write_read_partial`
- `Parcels.Load.C70_numeric_time_fails`
- `Parcels.Load.C70_curvilinear_fails`
- `Parcels.Load.C70_fieldset_partial`
- `Parcels.Load.C70_vector_fails`
- `Parcels.FromNetcdf.C71_same_partial`
- `Parcels.FromNetcdf.C71_works_partial`
- `Parcels.FromNetcdf.C71_fieldtype_fails`
- `Parcels.FromNetcdf.C71_fieldtype_missing_fails`
- `Parcels.FromNetcdf.C71_files_by_dim_fails`
- `Parcels.FromNetcdf.C71_coordinates_shared_fails`
- `Parcels.FromNetcdf.C71_times_shared_fails`
- `Parcels.FromNetcdf.C71_deferred_fails`
- `Parcels.FromNetcdf.C71_loads_partial`
- `Parcels.HaloSet.C72_continues_partial`
- `Parcels.HaloSet.C72_summed_fails`
- `Parcels.HaloSet.C72_two_names_fails`
- `Parcels.HaloSet.C72_constant_field_fails`
- `Parcels.HaloSet.C72_deferred_sizes_fails`
- `Parcels.HaloSet.C72_twice_fails`
- `Parcels.CGrid3D.C73_on_faces_partial`
- `Parcels.CGrid3D.C73_uniform_partial`
- `Parcels.CGrid3D.C73_box_partial`
- `Parcels.CGrid3D.C73_in_time_partial`
- `Parcels.CGrid3D.C73_upside_fails`
- `Parcels.CGrid3D.C73_moving_fails`
- `Parcels.CGrid3D.C73_mitgcm_fails`
- `Parcels.CGrid3D.C73_faces_nemo`
- `Parcels.SLevels.C74_levels_ordered`
- `Parcels.SLevels.C74_scipy_partial`
- `Parcels.SLevels.C74_jit_partial`
- `Parcels.SLevels.C74_modes_agree`
- `Parcels.SLevels.C74_linear_exact`
- `Parcels.SLevels.C74_between`
- `Parcels.SLevels.C74_periodic_fails`
- `Parcels.CurviS.C74_curvilinear_scipy_partial`
- `Parcels.CurviS.C74_curvilinear_jit_partial`
- `Parcels.CurviS.C74_curvilinear_linear_exact`
- `Parcels.FromField.C75_rectilinear_partial`
- `Parcels.FromField.C75_density_equal_cells`
- `Parcels.FromField.C75_value_positive`
- `Parcels.FromField.C75_value_cgrid`
- `Parcels.FromField.C75_curvilinear_partial`
- `Parcels.FromField.C75_stretched_fails`
- `Parcels.FromField.C75_depth_fails`
- `Parcels.FromField.C75_single_row_fails`
- `Parcels.FromField.C75_two_levels_fails`
- `Parcels.FromField.C75_lon_jump_fails`
- `Parcels.FromField.C75_zero_nodes_fails`
- `Parcels.ConstField.C76_uniform_scipy_partial`
- `Parcels.ConstField.C76_uniform_jit_partial`
- `Parcels.ConstField.C76_constant_field`
- `Parcels.ConstField.C76_pop_mom5_fails`
- `Parcels.ConstField.C76_tiny_fails`
- `Parcels.CurviField.C76_curvilinear_scipy_partial`
- `Parcels.CurviField.C76_curvilinear_jit_partial`
- `Parcels.CurviS.C76_curvilinear_s_scipy_partial`
- `Parcels.CurviS.C76_curvilinear_s_jit_partial`
- `Parcels.CurviS.C76_s_levels_scipy_partial`
- `Parcels.CurviS.C76_s_levels_jit_partial`
- `Parcels.Scope.C77_scope_partial`
- `Parcels.Scope.C77_clash_fails`
- `Parcels.Scope.C77_undeclared_fails`
- `Parcels.CellAreas.C78_equidistant_partial`
- `Parcels.CellAreas.C78_sphere_partial`
- `Parcels.CellAreas.C78_stretched_fails`
- `Parcels.CellAreas.C78_halo_fails`
- `Parcels.Construct.C79_values_partial`
- `Parcels.Construct.C79_lengths`
- `Parcels.Construct.C79_accepts`
- `Parcels.Construct.C79_line`
- `Parcels.Construct.C79_copy_order_fails`
- `Parcels.Construct.C79_copy_unknown_fails`
- `Parcels.Construct.C79_repeat_fails`
- `Parcels.Seawater.C80_pressure`
- `Parcels.Seawater.C80_pressure_order`
- `Parcels.Seawater.C80_gradient`
- `Parcels.Seawater.C80_potential_temperature`
- `Parcels.Seawater.C80_temperature`
- `Parcels.Seawater.C80_order_four`
- `Parcels.Seawater.C80_reference`
- `Parcels.Seawater.C80_teos`
- `Parcels.Seawater.C80_density_partial`
- `Parcels.Seawater.C80_density_order`
- `Parcels.Seawater.C80_density_fails`
- `Parcels.OutVars.C81_file_partial`
- `Parcels.OutVars.C81_status`
- `Parcels.OutVars.C81_precision_fails`
- `Parcels.Memory.C83_sample_partial`
- `Parcels.Memory.C83_history_partial`
- `Parcels.Memory.C83_mom5_fails`
- `Parcels.Memory.C83_pop_fails`
- `Parcels.Memory.C83_mitgcm_fails`
- `Parcels.Memory.C83_halo_fails`
- `Parcels.Memory.C83_decreasing_fails`
- `Parcels.Memory.C83_column_fails`
- `Parcels.Memory.C83_sphere_fails`
- `Parcels.Memory.C83_last_row_fails`
- `Parcels.Memory.C83_populate_fails`
- `Parcels.Access.C84_visits`
- `Parcels.Access.C84_visits_subset`
- `Parcels.Access.C84_visits_ids`
- `Parcels.Access.C84_read`
- `Parcels.Access.C84_invalid`
- `Parcels.Access.C84_write`
- `Parcels.Access.C84_next_dt`
- `Parcels.Access.C84_loop`
- `Parcels.Access.C84_loop_subset`
- `Parcels.Access.C84_data_indices`
- `Parcels.Access.C84_error_particles`
- `Parcels.Access.C84_kept_particle_partial`
- `Parcels.Access.C84_attribute_partial`
- `Parcels.Access.C84_set_vector`
- `Parcels.Access.C84_set_attribute_fails`
- `Parcels.Constructors.C85_fields`
- `Parcels.Constructors.C85_dimensions`
- `Parcels.Constructors.C85_accepts`
- `Parcels.Constructors.C85_refuses`
- `Parcels.Constructors.C85_files`
- `Parcels.Constructors.C85_from_parcels_names`
- `Parcels.ChunkSpec.C86_sizes_partial`
- `Parcels.ChunkSpec.C86_refused`
- `Parcels.ChunkSpec.C86_argument_after`
- `Parcels.ChunkSpec.C86_auto`
- `Parcels.ChunkSpec.C86_fields_partial`
- `Parcels.ChunkSpec.C86_shared_grid`
- `Parcels.ChunkSpec.C86_documented_format_fails`
- `Parcels.Libs.C87_own_code`
- `Parcels.Libs.C87_runs_partial`
- `Parcels.Libs.C87_libraries`
- `Parcels.Libs.C87_clean_partial`
- `Parcels.Libs.C87_others`
- `Parcels.Libs.C87_keep_partial`
- `Parcels.MixedChunks.C88_reads_partial`
- `Parcels.MixedChunks.C88_no_refusal_partial`
- `Parcels.MixedChunks.C88_data`
- `Parcels.MixedChunks.C88_joined_fails`
- `Parcels.SharedFields.C89_dates`
- `Parcels.SharedFields.C89_in_place_partial`
- `Parcels.SharedFields.C89_added`
- `Parcels.SharedFields.C89_entries`
- `Parcels.SharedFields.C89_untouched_partial`
- `Parcels.SharedFields.C89_clock_partial`
- `Parcels.SharedFields.C89_clock_kept_partial`
- `Parcels.SharedFields.C89_entry_fails`
- `Parcels.SharedFields.C89_clock_fails`
- `Parcels.SharedFields.C89_grid_fails`
- `Parcels.Dispatch.C91_get_partial`
- `Parcels.Dispatch.C91_remove_partial`
- `Parcels.Dispatch.C91_isub_particle`
- `Parcels.Dispatch.C91_delete_partial`
- `Parcels.Dispatch.C91_remove_indices_partial`
- `Parcels.Dispatch.C91_int64_fresh_partial`
- `Parcels.ZonalCheck.C92_winding`
- `Parcels.ZonalCheck.C92_convention`
- `Parcels.ZonalCheck.C92_kept`
- `Parcels.ZonalCheck.C92_closed_scipy`
- `Parcels.ZonalCheck.C92_closed_jit_partial`
- `Parcels.ZonalCheck.C92_open_fails`
- `Parcels.ZonalCheck.C92_gap_fails`
- `Parcels.ZonalCheck.C92_first_row_fails`
- `Parcels.DepthFields.C93_same_grid`
- `Parcels.DepthFields.C93_same_times`
- `Parcels.DepthFields.C93_same_times_backward_partial`
- `Parcels.DepthFields.C93_in_memory`
- `Parcels.DepthFields.C93_missing_reported`
- `Parcels.DepthFields.C93_no_files_fails`
- `Parcels.DepthFields.C93_new_field_fails`
- `Parcels.DepthFields.C93_other_times_fails`
- `Parcels.DepthFields.C93_mixed_loading_fails`
- `Parcels.FloatTime.C94_events_partial`
- `Parcels.FloatTime.C94_output_partial`
- `Parcels.FloatTime.C94_release_partial`
- `Parcels.FloatTime.C94_particles_scipy_partial`
- `Parcels.FloatTime.C94_particles_jit_partial`
- `Parcels.FloatTime.C94_arrival_partial`
- `Parcels.FloatTime.C94_tenths_fails`
- `Parcels.FloatTime.C94_lost_interval_fails`
- `Parcels.FloatTime.C94_lost_step_fails`
- `Parcels.FloatAdvect.C95_ee`
- `Parcels.FloatAdvect.C95_rk4`
- `Parcels.FloatAdvect.C95_rk4_3D`
- `Parcels.FloatAdvect.C95_drift_lost`
- `Parcels.FloatSample.C96_precisions`
- `Parcels.FloatSample.C96_fits`
- `Parcels.FloatSample.C96_search_scipy_partial`
- `Parcels.FloatSample.C96_search_jit_partial`
- `Parcels.FloatSample.C96_sample_scipy_partial`
- `Parcels.FloatSample.C96_sample_jit_partial`
- `Parcels.FloatSample.C96_time_scipy_partial`
- `Parcels.FloatSample.C96_time_jit_partial`
- `Parcels.FloatSample.C96_double_fails`
- `Parcels.FloatSample.C96_dateline_fails`
- `Parcels.WholeRun.C97_run`
- `Parcels.WholeRun.C97_records`
- `Parcels.WholeRun.C97_raises`
- `Parcels.WholeRun.C97_ends`
- `Parcels.WholeRun.C97_rk4`
- `Parcels.WholeRun.C97_uniform`
- `Parcels.WholeRun.C97_off_grid_fails`
- `Parcels.WholeRun.C98_split_partial`
- `Parcels.WholeRun.C98_records_partial`
- `Parcels.WholeRun.C98_empty_fails`
- `Parcels.WholeRun.C98_late_fails`
- `Parcels.WholeRun.C98_output_fails`
- `Parcels.GridRun.C99_sample`
- `Parcels.GridRun.C99_covers`
- `Parcels.GridRun.C99_scipy`
- `Parcels.GridRun.C99_jit`
- `Parcels.GridRun.C99_values`
- `Parcels.GridRun.C99_modes`
- `Parcels.GridRun.C99_modes_raise`
- `Parcels.GridRun.C99_rk4`
- `Parcels.GridRun.C99_uniform`
- `Parcels.DeferRun.C100_scipy_follows`
- `Parcels.DeferRun.C100_jit_follows`
- `Parcels.DeferRun.C100_scipy_partial`
- `Parcels.DeferRun.C100_jit_partial`
- `Parcels.DeferRun.C100_ends`
- `Parcels.DeferRun.C100_kernels`
- `Parcels.DeferRun.C100_seconds_fails`
- `Parcels.DeferRun.C100_off_grid_fails`
- `Parcels.DeferRun.C100_end_fails`
- `Parcels.DeferRun.C100_backward_fails`
- `Parcels.SphereRun.C101_sample`
- `Parcels.SphereRun.C101_sample_regional`
- `Parcels.SphereRun.C101_values`
- `Parcels.SphereRun.C101_scipy`
- `Parcels.SphereRun.C101_jit`
- `Parcels.SphereRun.C101_modes`
- `Parcels.SphereRun.C101_modes_raise`
- `Parcels.SphereRun.C101_global`
- `Parcels.SphereRun.C101_uniform`
- `Parcels.SphereRun.C101_dateline_fails`
- `Parcels.SphereRun.C101_modes_fails`
- `Parcels.SphereRun.C101_tutorial_fails`
- `Parcels.ReleaseRun.C102_run`
- `Parcels.ReleaseRun.C102_records`
- `Parcels.ReleaseRun.C102_raises`
- `Parcels.ReleaseRun.C102_ends`
- `Parcels.ReleaseRun.C102_delayed`
- `Parcels.ReleaseRun.C102_split_partial`
- `Parcels.ReleaseRun.C102_first`
- `Parcels.ReleaseRun.C102_given_fails`
- `Parcels.ReleaseRun.C102_output_fails`
- `Parcels.RandomRun.C103_run`
- `Parcels.RandomRun.C103_records`
- `Parcels.RandomRun.C103_raises`
- `Parcels.RandomRun.C103_ends`
- `Parcels.RandomRun.C103_modes`
- `Parcels.RandomRun.C103_split`
- `Parcels.RandomRun.C103_single`
- `Parcels.RandomRun.C103_repair`
- `Parcels.RandomRun.C103_output_fails`
- `Parcels.RandomRun.C103_particles_fails`
- `Parcels.ErrorReport.C104_scipy_partial`
- `Parcels.ErrorReport.C104_jit_partial`
- `Parcels.ErrorReport.C104_stops`
- `Parcels.ErrorReport.C104_equator_fails`
- `Parcels.ErrorReport.C104_surface_fails`
- `Parcels.ErrorReport.C104_time_fails`
- `Parcels.ErrorReport.C104_stale_fails`
- `Parcels.ErrorReport.C104_step_fails`
- `Parcels.ExportRun.C105_export_partial`
- `Parcels.ExportRun.C105_times`
- `Parcels.ExportRun.C105_path_fails`
- `Parcels.ExportRun.C106_set`
- `Parcels.ExportRun.C106_restart_partial`
- `Parcels.ExportRun.C106_late_fails`
- `Parcels.ExportRun.C106_backward_fails`
- `Parcels.RepairRun.C108_run`
- `Parcels.RepairRun.C108_records`
- `Parcels.RepairRun.C108_raises`
- `Parcels.RepairRun.C108_ends`
- `Parcels.RepairRun.C108_endless`
- `Parcels.PathRun.C109_run`
- `Parcels.PathRun.C109_end`
- `Parcels.PathRun.C109_records`
- `Parcels.PathRun.C109_raises`
- `Parcels.PathRun.C109_invariant`
- `Parcels.PathRun.C109_exact`
- `Parcels.PathRun.C109_exact_end_fails`
- `Parcels.AdaptiveRun.C110_run`
- `Parcels.AdaptiveRun.C110_end_partial`
- `Parcels.AdaptiveRun.C110_arrive`
- `Parcels.AdaptiveRun.C110_records`
- `Parcels.AdaptiveRun.C110_raises`
- `Parcels.AdaptiveRun.C110_rk45`
- `Parcels.AdaptiveRun.C110_rk45_stuck`
- `Parcels.AdaptiveRun.C110_uniform`
- `Parcels.AdaptiveRun.C110_left_behind_fails`
- `Parcels.DriftRun.C111_scipy`
- `Parcels.DriftRun.C111_jit`
- `Parcels.DriftRun.C111_distance`
- `Parcels.DriftRun.C111_flow`
- `Parcels.DriftRun.C111_kernels`
- `Parcels.DriftRun.C111_rk45_partial`
- `Parcels.DriftRun.C111_rk45_fails`
- `Parcels.NestRun.C112_value`
- `Parcels.NestRun.C112_same`
- `Parcels.NestRun.C112_first`
- `Parcels.NestRun.C112_found_partial`
- `Parcels.NestRun.C112_values`
- `Parcels.NestRun.C112_scipy`
- `Parcels.NestRun.C112_jit`
- `Parcels.NestRun.C112_scipy_path`
- `Parcels.NestRun.C112_jit_path`
- `Parcels.NestRun.C112_modes`
- `Parcels.NestRun.C112_modes_raise`
- `Parcels.NestRun.C112_rk4`
- `Parcels.NestRun.C112_surface_fails`
- `Parcels.NestRun.C112_time_fails`
- `Parcels.PeriodRun.C113_sample`
- `Parcels.PeriodRun.C113_always`
- `Parcels.PeriodRun.C113_values`
- `Parcels.PeriodRun.C113_scipy`
- `Parcels.PeriodRun.C113_jit`
- `Parcels.PeriodRun.C113_modes`
- `Parcels.PeriodRun.C113_modes_raise`
- `Parcels.PeriodRun.C113_later_scipy`
- `Parcels.PeriodRun.C113_later_jit`
- `Parcels.PeriodRun.C113_kernels`
- `Parcels.PeriodRun.C113_open_fails`
- `Parcels.Advance.C114_grid`
- `Parcels.Advance.C114_grid_raises`
- `Parcels.Advance.C114_field_partial`
- `Parcels.Advance.C114_never_fails`
- `Parcels.Advance.C114_data_fails`
- `Parcels.Advance.C114_first`
- `Parcels.Advance.C114_moved_fails`
- `Parcels.Advance.C114_samples_fails`
- `Parcels.Advance.C114_again_fails`
- `Parcels.SumRun.C115_scipy_value`
- `Parcels.SumRun.C115_covers`
- `Parcels.SumRun.C115_jit_value_partial`
- `Parcels.SumRun.C115_swallow_fails`
- `Parcels.SumRun.C115_values`
- `Parcels.SumRun.C115_scipy`
- `Parcels.SumRun.C115_jit_partial`
- `Parcels.SumRun.C115_jit_covered`
- `Parcels.SumRun.C115_modes_partial`
- `Parcels.SumRun.C115_modes_raise_partial`
- `Parcels.SumRun.C115_run_fails`
- `Parcels.UnitRun.C116_sample`
- `Parcels.UnitRun.C116_scipy`
- `Parcels.UnitRun.C116_jit`
- `Parcels.UnitRun.C116_raise_scipy`
- `Parcels.UnitRun.C116_raise_jit`
- `Parcels.UnitRun.C116_kernels`
- `Parcels.TurnRun.C117_sample`
- `Parcels.TurnRun.C117_scipy`
- `Parcels.TurnRun.C117_jit`
- `Parcels.TurnRun.C117_raise_scipy`
- `Parcels.TurnRun.C117_raise_jit`
- `Parcels.TurnRun.C117_complete_scipy`
- `Parcels.TurnRun.C117_complete_jit`
- `Parcels.TurnRun.C117_kernels`
- `Parcels.TurnRun.C117_dateline_fails`
- `Parcels.ReleaseGrid.C118_plain`
- `Parcels.ReleaseGrid.C118_plain_raise`
- `Parcels.ReleaseGrid.C118_plain_first`
- `Parcels.ReleaseGrid.C118_periodic`
- `Parcels.ReleaseGrid.C118_periodic_raise`
- `Parcels.ReleaseGrid.C118_periodic_first`
- `Parcels.ReleaseGrid.C118_nested`
- `Parcels.ReleaseGrid.C118_nested_raise`
- `Parcels.ReleaseGrid.C118_nested_first`
- `Parcels.ReleaseGrid.C118_summed_partial`
- `Parcels.ReleaseGrid.C118_summed_raise_partial`
- `Parcels.ReleaseGrid.C118_summed_first_partial`
- `Parcels.ReleaseGrid.C118_sphere_partial`
- `Parcels.ReleaseGrid.C118_sphere_raise_partial`
- `Parcels.ReleaseGrid.C118_sphere_first_partial`
- `Parcels.Plot.C119_node`
- `Parcels.Plot.C119_all`
- `Parcels.Plot.C119_shows`
- `Parcels.Plot.C119_title`
- `Parcels.Plot.C119_cells`
- `Parcels.Plot.C119_tracer`
- `Parcels.Plot.C119_vector_partial`
- `Parcels.Plot.C119_domain_partial`
- `Parcels.Plot.C119_domain_edge`
- `Parcels.Plot.C119_extrap_fails`
- `Parcels.Plot.C119_vector_fails`
- `Parcels.Plot.C119_zero_fails`
- `Parcels.Plot.C119_cgrid_north_fails`
- `Parcels.CGridRun.C120_scipy`
- `Parcels.CGridRun.C120_jit_partial`
- `Parcels.CGridRun.C120_raise`
- `Parcels.CGridRun.C120_modes_partial`
- `Parcels.CGridRun.C120_face`
- `Parcels.CGridRun.C120_modes_fails`
- `Parcels.CGridRun.C121_scipy`
- `Parcels.CGridRun.C121_jit_partial`
- `Parcels.CGridRun.C121_raises`
- `Parcels.CGridRun.C121_step_partial`
- `Parcels.CGridRun.C121_kernels`
- `Parcels.CGridRun.C121_uniform`
- `Parcels.CGridRun.C121_speed`
- `Parcels.CGridRun.C121_modes_fails`
- `Parcels.XArray.C122_values_partial`
- `Parcels.XArray.C122_makes_partial`
- `Parcels.XArray.C122_settings_partial`
- `Parcels.XArray.C122_alone`
- `Parcels.XArray.C122_dataset_partial`
- `Parcels.XArray.C122_order_fails`
- `Parcels.XArray.C122_units_fails`
- `Parcels.XArray.C122_periodic_fails`
- `Parcels.XArray.C122_extrapolation_fails`
- `Parcels.XArray.C122_fieldtype_fails`
- `Parcels.XArray.C122_dataset_fails`
- `Parcels.Loggers.C123_once`
- `Parcels.Timer.C125_counts`
- `Parcels.Timer.C125_calls`
- `Parcels.Timer.C125_nonneg`
- `Parcels.Timer.C125_share_partial`
- `Parcels.Timer.C125_share_fails`
- `Parcels.Shapes.C126_exact`
- `Parcels.Shapes.C126_corners`
- `Parcels.Shapes.C126_between`
- `Parcels.Shapes.C126_jacobian`
- `Parcels.ReleaseDates.C127_dates_partial`
- `Parcels.ReleaseDates.C127_plain`
- `Parcels.ReleaseDates.C127_refused`
- `Parcels.ReleaseDates.C127_compare`
- `Parcels.ReleaseDates.C127_mixed_fails`
- `Parcels.ReleaseDates.C127_no_calendar_fails`
- `Parcels.Indent.C128_less_fails`
- `Parcels.Metadata.C130_script_fails`
- `Parcels.GetExamples.C131_complete_partial`
- `Parcels.CompilerCmd.C132_passed`
- `Parcels.CompilerCmd.C132_optimisation`
- `Parcels.CompilerCmd.C132_rpath_fails`
- `Parcels.Movie.C133_frames`
- `Parcels.Movie.C133_records`
- `Parcels.Movie.C133_longitude_partial`
- `Parcels.Movie.C133_longitude_fails`

## Quot.sound, propext

- `Parcels.Recovery.C05_handlers_called_exactly_on_their_errors`
- `Parcels.KernelMerge.C08_addition_associative`
- `Parcels.Collection.C14_repeated_index`
- `Parcels.Collection.C16_negation`
- `Parcels.Crash.C22_crash_keeps_completed_calls_partial`
- `Parcels.Crash.C22_index_window`
- `Parcels.Curvilinear.C28_populate_fails`
- `Parcels.FieldLists.C34_jit`
- `Parcels.FieldLists.C34_scipy_sampling_error`
- `Parcels.Halo.C38_data`
- `Parcels.Halo.C38_coordinates`
- `Parcels.Names.C43_kept`
- `Parcels.Names.C43_own`
- `Parcels.Names.C43_reads`
- `Parcels.Chunks.C47_one_chunk`
- `Parcels.Chunks.C48_states_snapshot`
- `Parcels.CGrid.C51_shared_faces`
- `Parcels.CGrid.C51_mitgcm_jit`
- `Parcels.Layout.C53_variables`
- `Parcels.Layout.C53_reserved`
- `Parcels.TimeChunk.C55_extra_record_wrong`
- `Parcels.Restart.C56_new_ids`
- `Parcels.GridSet.C58_single`
- `Parcels.RepeatRelease.C59_release_keeps_the_others`
- `Parcels.SharedData.C61_other_sets_unchanged_partial`
- `Parcels.SharedData.C61_negation`
- `Parcels.Curvilinear.C68_uniform`
- `Parcels.FromNetcdf.C71_from_data_partial`
- `Parcels.OutVars.C81_status_shared_fails`
- `Parcels.Complete.C82_pairs_partial`
- `Parcels.Complete.C82_triples_partial`
- `Parcels.Complete.C82_sum_partial`
- `Parcels.Complete.C82_dropped_fails`
- `Parcels.Complete.C82_mitgcm_fails`
- `Parcels.Access.C84_kept_particle_fails`
- `Parcels.Access.C84_remove_in_loop_fails`
- `Parcels.Constructors.C85_filenames_kept_partial`
- `Parcels.MixedChunks.C88_mixed_fails`
- `Parcels.Namespace.C90_add_field`
- `Parcels.Namespace.C90_keeps_partial`
- `Parcels.Namespace.C90_registered_partial`
- `Parcels.Namespace.C90_constant`
- `Parcels.Namespace.C90_get_fields`
- `Parcels.Namespace.C90_complete`
- `Parcels.Namespace.C90_vector_refused_fails`
- `Parcels.Dispatch.C91_int64_is_index`
- `Parcels.Dispatch.C91_int64_fails`
- `Parcels.Dispatch.C91_other_arguments`
- `Parcels.JitData.C107_fields_partial`
- `Parcels.JitData.C107_coords`
- `Parcels.JitData.C107_times`
- `Parcels.JitData.C107_halo_fails`
- `Parcels.JitData.C107_double_fails`
- `Parcels.JitData.C107_other_fails`
- `Parcels.Plot.C119_default_fails`
- `Parcels.Loggers.C123_first`
- `Parcels.Loggers.C123_plain_partial`
- `Parcels.RngLib.C124_use_partial`
- `Parcels.RngLib.C124_found`
- `Parcels.RngLib.C124_files`
- `Parcels.RngLib.C124_left_fails`
- `Parcels.Shapes.C126_derivatives`
- `Parcels.Shapes.C126_used`
- `Parcels.Indent.C128_indented_partial`
- `Parcels.Indent.C128_kept`
- `Parcels.Metadata.C130_close`
- `Parcels.Metadata.C130_script_partial`
- `Parcels.Metadata.C130_after_fails`
- `Parcels.GetExamples.C131_interrupted`
- `Parcels.GetExamples.C131_again_partial`

## propext

- `Parcels.Recovery.C05_outcome_of_recovery`
- `Parcels.KernelMerge.C08_sum_runs_both_partial`
- `Parcels.KernelMerge.C08_bare_function`
- `Parcels.KernelMerge.C08_first_return_ends_sum`
- `Parcels.Collection.C14_other_variables`
- `Parcels.FieldLists.C34_scipy_partial`
- `Parcels.FieldLists.C35_scipy`
- `Parcels.FieldLists.C35_jit_scalar`
- `Parcels.FieldLists.C35_jit_vector_partial`
- `Parcels.FieldLists.C35_jit_vector_swallows`
- `Parcels.FieldLists.C35_add_changes_operand`
- `Parcels.Halo.C38_size_zero`
- `Parcels.Names.C43_full_false`
- `Parcels.Names.C43_clash_reads`
- `Parcels.Chunks.C47_single_level_chunks_fails`
- `Parcels.Chunks.C47_single_row_fails`
- `Parcels.Layout.C53_same_name_fails`
- `Parcels.Rng.C54_randint_order_fails`
- `Parcels.Recovery.C60_recovery_dictionary_partial`
- `Parcels.Layout.C67_backup_partial`
- `Parcels.OutVars.C81_names_fails`
- `Parcels.OutVars.C81_time_id_fails`
- `Parcels.Complete.C82_empty`
- `Parcels.Complete.C82_unchecked_fails`
- `Parcels.Complete.C82_mixed_fails`
- `Parcels.Memory.C83_unset_fails`
- `Parcels.Memory.C83_exit_fails`
- `Parcels.Access.C84_unknown_attribute_fails`
- `Parcels.ChunkSpec.C86_argument_fails`
- `Parcels.ChunkSpec.C86_order_fails`
- `Parcels.ChunkSpec.C86_per_variable_fails`
- `Parcels.ChunkSpec.C86_size_one_fails`
- `Parcels.ChunkSpec.C86_mixed_fails`
- `Parcels.ChunkSpec.C86_missing_variable_fails`
- `Parcels.MixedChunks.C88_both_fails`
- `Parcels.MixedChunks.C88_one_block_fails`
- `Parcels.Namespace.C90_constant_fails`
- `Parcels.Namespace.C90_vector_replaces_fails`
- `Parcels.Namespace.C90_summed_vector_fails`
- `Parcels.Namespace.C90_add_field_refused_fails`
- `Parcels.Namespace.C90_renamed_fails`
- `Parcels.Dispatch.C91_ignored_fails`
- `Parcels.Dispatch.C91_pop_fails`
- `Parcels.Loggers.C123_plain_fails`
- `Parcels.Loggers.C123_arguments_fails`
- `Parcels.AutoChunks.C129_kept_partial`
- `Parcels.AutoChunks.C129_one_time_fails`
- `Parcels.AutoChunks.C129_depth_fails`
- `Parcels.AutoChunks.C129_flat_fails`
- `Parcels.GetExamples.C131_again_fails`
- `Parcels.GetExamples.C131_second_fails`
- `Parcels.CompilerCmd.C132_compiler_partial`
- `Parcels.CompilerCmd.C132_mpicc_fails`
- `Parcels.CompilerCmd.C132_libs_fails`

## none

- `Parcels.Collection.C13_empty_set_repeats_ids`
- `Parcels.Collection.C23_negative_partition_loses_particle`
- `Parcels.Collection.C23_repeated_release_raises`
- `Parcels.FromNetcdf.C71_from_data_fails`
- `Parcels.Access.C84_reverse_subset_fails`
- `Parcels.Constructors.C85_filenames_changed_fails`
- `Parcels.Constructors.C85_extra_fields_changed_fails`
- `Parcels.Libs.C87_failed_compile_fails`
- `Parcels.Libs.C87_retry_fails`
- `Parcels.Libs.C87_failed_files_fails`
- `Parcels.Libs.C87_keep_fails`
- `Parcels.Libs.C87_same_time_fails`
- `Parcels.RngLib.C124_removed_fails`
