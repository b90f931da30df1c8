# Axioms of the theorems in MANIFEST.json

As printed by `#print axioms` (Lean 4.33.0).

## none

`KD.dummy_overwrites`, `KD.Geo.shapes_agree`, `KD.Geo.splitRows_ok`, `KD.Geo.splitCols_ok`, `KD.quick_pos_wrong`, `KD.paths_twice_wrong`

## propext

`KD.open_zero_shifts_index`, `KD.open_bad_category`, `KD.keys_unknown_source`, `KD.key_lookup_dot_fails`, `KD.failed_request_not_cached`, `KD.globMatch_unclosed`, `KD.contiguousRegions_empty`, `KD.index_out_of_order_wrong`, `KD.validation_rounding_wrong`, `KD.history_byname_wrong`, `KD.history_modified_wrong`, `KD.dump_leftover_wrong`, `KD.save_shadowed_wrong`, `KD.save_other_error`, `KD.stack_scalar_wrong`, `KD.stack_axis_wraps_wrong`, `KD.pulse_negative_wrong`, `KD.pulse_other_refused`, `KD.nothing_after_stop`, `KD.stop_loses_wrong`, `KD.stop_drops_wrong`, `KD.double_start_wrong`, `KD.message_v1`, `KD.protocol_versions`, `KD.dummyStamps_succeeds`, `KD.dummy_mutates_wrong`, `KD.dummy_mutates_meta_wrong`, `KD.dummy_v1_wrong`, `KD.Geo.split_old_other_wrong`, `KD.open_run_zeros_wrong`, `KD.quick_next_wrong`, `KD.quick_without_data`, `KD.ls_folder_wrong`, `KD.ls_default`, `KD.rstripSlash_iff`, `KD.ls_many_order`, `KD.cli_default_inj`, `KD.cli_access`, `KD.dirname_root`, `KD.goodNames_data`, `KD.goodNames_group`, `KD.paths_omits_wrong`, `KD.cbf_no_metadata`

## propext, Classical.choice, Quot.sound

`KD.open_index_rows`, `KD.open_old_index`, `KD.open_sources`, `KD.keys_exact`, `KD.keys_for_source_opened`, `KD.keys_for_source_selected`, `KD.file_open_after`, `KD.open_collection_train_ids`, `KD.conflict_exact`, `KD.sources_exact`, `KD.open_sources_selected`, `KD.open_paths_error`, `KD.open_one_path`, `KD.run_directory_empty`, `KD.globMatch_reads`, `KD.every_pattern_reads`, `KD.globMatch_iff`, `KD.globMatch_literal`, `KD.globMatch_star`, `KD.select_globs_exact`, `KD.select_globs_error`, `KD.select_never_widens_partial`, `KD.select_brings_back_iff`, `KD.select_keeps_iff`, `KD.reachable_selection_nodup`, `KD.select_dict_exact_partial`, `KD.deselect_complement_partial`, `KD.deselect_exact`, `KD.deselect_error_iff`, `KD.union_selections_exact`, `KD.union_selections_perm`, `KD.union_selections_grouping`, `KD.union_error_iff`, `KD.union_trains_files`, `KD.union_available`, `KD.union_order_independent`, `KD.union_grouping`, `KD.select_trains_by_id_slice_partial`, `KD.select_trains_by_id_range_partial`, `KD.select_trains_by_id_value_error`, `KD.select_trains_by_id_gap_type_error`, `KD.select_trains_by_id_outcome`, `KD.select_trains_by_index_slice_up`, `KD.select_trains_by_index_slice_down`, `KD.select_trains_by_id_list`, `KD.select_trains_by_index_list`, `KD.select_trains_files`, `KD.select_trains_keeps_data`, `KD.select_keeps_data`, `KD.select_commutes`, `KD.contiguousRegions_cover`, `KD.get_array_exact`, `KD.get_array_order`, `KD.get_array_order_gaps`, `KD.get_array_in_order_partial`, `KD.field_errors_partial`, `KD.get_array_field_errors`, `KD.get_data_counts_field_errors`, `KD.get_series_field_errors`, `KD.dask_array_field_errors`, `KD.get_array_refuses_mismatch`, `KD.train_from_id_sources`, `KD.train_from_id_instrument`, `KD.train_from_id_control_partial`, `KD.train_from_id_control_row`, `KD.train_from_id_control_iff`, `KD.train_from_id_succeeds`, `KD.trains_agree`, `KD.trains_succeeds`, `KD.trains_shows`, `KD.trains_require_all`, `KD.train_from_index`, `KD.get_data_counts_indexed`, `KD.get_data_counts_exact`, `KD.get_data_counts_array`, `KD.get_series_exact`, `KD.get_series_succeeds`, `KD.get_series_one_dim`, `KD.dask_array_eq_partial`, `KD.dask_array_shapes`, `KD.dask_chunk_size`, `KD.get_dataframe_columns`, `KD.written_instrument_index`, `KD.written_control_index`, `KD.write_read_partial`, `KD.write_succeeds_iff`, `KD.write_same_iff`, `KD.virtual_equals_copy_partial`, `KD.virtual_read_partial`, `KD.virtual_dataset_array`, `KD.virtual_dataset_read`, `KD.write_virtual_succeeds_iff`, `KD.virtual_dataset_succeeds_iff`, `KD.written_file_valid`, `KD.virtual_file_valid`, `KD.index_validation_partial`, `KD.index_report_exact`, `KD.outside_report_exact`, `KD.index_report_true`, `KD.f64_nearest`, `KD.train_id_check_exact`, `KD.validate_run_exact_partial`, `KD.validate_run_needs_cache`, `KD.cache_entry_valid`, `KD.cache_entry_used`, `KD.cache_history_partial`, `KD.cache_history_stable`, `KD.cache_history_complete`, `KD.cache_history_honest`, `KD.run_directory_cache`, `KD.dump_succeeds`, `KD.save_then_load_partial`, `KD.save_place`, `KD.stack_places`, `KD.dataOf_unique`, `KD.stack_axis_iff`, `KD.stack_accepts_iff`, `KD.stack_errors_partial`, `KD.stack_value_errors`, `KD.stack_shapes_refused`, `KD.stack_empty_out_of_range_wrong`, `KD.view_single`, `KD.view_single_beyond`, `KD.view_all`, `KD.view_all_partial`, `KD.stack_view_good`, `KD.view_reads_partial`, `KD.stack_data_order`, `KD.stack_data_succeeds`, `KD.stack_data_empty`, `KD.stack_data_dtypes`, `KD.stack_data_errors`, `KD.pulse_slice_refused`, `KD.pulse_slice_normalised`, `KD.pulse_negative_refused_partial`, `KD.pulse_list_exact`, `KD.checkPulses_asked`, `KD.get_array_exact_partial`, `KD.get_array_succeeds`, `KD.get_array_unordered`, `KD.iterate_exact`, `KD.iterate_exact_partial`, `KD.iterate_labels`, `KD.get_array_runs_partial`, `KD.get_array_runs_succeeds`, `KD.exDet_valid`, `KD.exRuns_valid`, `KD.iterate_agrees_partial`, `KD.iterate_agrees_runs_partial`, `KD.iterate_trains`, `KD.iterate_succeeds`, `KD.detector_trains`, `KD.detector_min_modules`, `KD.detector_frames`, `KD.detector_fails`, `KD.exDet_hasImages`, `KD.train_chunks_runs`, `KD.runs_unique`, `KD.get_array_labels`, `KD.identify_sources`, `KD.detector_sources`, `KD.detector_modules`, `KD.duplicate_module_refused`, `KD.moduleNumber_iff`, `KD.detectorName_iff`, `KD.find_detector`, `KD.cxi_file`, `KD.cxi_datasets`, `KD.cxi_written`, `KD.collectLayout_cells`, `KD.mapChunk_returns`, `KD.exGaps_follows`, `KD.cxi_pulse_ids_partial`, `KD.cxi_pulse_ids_exact`, `KD.stream_order`, `KD.stream_order_of_calls`, `KD.exServe_once`, `KD.stop_sends_one`, `KD.message_decodes`, `KD.message_sorted`, `KD.message_succeeds`, `KD.message_fails`, `KD.message_errors`, `KD.dummy_timestamps_partial`, `KD.serve_files_selects_partial`, `KD.trains_available`, `KD.Geo.tile_region`, `KD.Geo.tiles_partition`, `KD.Geo.tile_inside`, `KD.Geo.tile_origin`, `KD.Geo.split_regions`, `KD.Geo.coords_to_tile`, `KD.Geo.coords_of_pixel`, `KD.Geo.snap_iff`, `KD.Geo.snap_fails`, `KD.Geo.snaps_unique`, `KD.Geo.axisAligned_iff`, `KD.Geo.cell_injective`, `KD.Geo.tile_covers_iff`, `KD.Geo.place_tile`, `KD.Geo.tile_pixel`, `KD.Geo.grid_cells`, `KD.Geo.box_tight`, `KD.Geo.output_shape`, `KD.Geo.snapped_succeeds`, `KD.Geo.assemble_new`, `KD.Geo.assemble_out`, `KD.Geo.pixel_has_cell`, `KD.Geo.assemble_not_aligned`, `KD.Geo.assemble_bad_data`, `KD.Geo.assemble_bad_out`, `KD.Geo.assemble_bad_tiles`, `KD.Geo.no_overlap`, `KD.Geo.pixel_positions`, `KD.Geo.coord_position`, `KD.Geo.positions_agree`, `KD.Geo.centre_eq`, `KD.Geo.crystfel_round_trip_partial`, `KD.Geo.readAll_exists`, `KD.Geo.reads_tile`, `KD.Geo.crystfel_ranges`, `KD.Geo.crystfel_dims`, `KD.Geo.crystfel_header`, `KD.Geo.crystfel_offset_wrong`, `KD.Geo.rigid_groups`, `KD.Geo.rigid_written`, `KD.Geo.arraySplit_parts`, `KD.Geo.distortion_all`, `KD.Geo.distortion_shifted`, `KD.Geo.pixelCorners_eq`, `KD.Geo.lpd_units`, `KD.Geo.agipd_units_partial`, `KD.Geo.agipd_units_wrong`, `KD.Geo.agipd_millimetres_wrong`, `KD.Geo.lpd_quads`, `KD.Geo.lpd_tile`, `KD.Geo.lpd_inside`, `KD.Geo.lpd_no_overlap`, `KD.Geo.lpd_quad_box`, `KD.Geo.lpd_quads_no_overlap`, `KD.Geo.agipd_quads`, `KD.Geo.agipd_tile`, `KD.Geo.agipd_inside`, `KD.Geo.agipd_no_overlap`, `KD.Geo.split_old_new_partial`, `KD.int_names`, `KD.padded_inj`, `KD.quick_valid_partial`, `KD.quick_shows`, `KD.quick_prev`, `KD.quick_next`, `KD.quick_display`, `KD.filename_fails`, `KD.repr_reads_back_partial`, `KD.repr_tuple_wrong`, `KD.repr_inj`, `KD.info_exact`, `KD.info_answers`, `KD.detector_match`, `KD.train_info_partial`, `KD.train_info_all`, `KD.detector_info_exact`, `KD.Geo.lpd_h5`, `KD.Geo.dssc_h5`, `KD.Geo.invert_positions`, `KD.Geo.invert_fails`, `KD.Geo.invert_twice_partial`, `KD.Geo.invert_twice_wrong`, `KD.Geo.box_holds`, `KD.Geo.interpolate_wrong`, `KD.Geo.interpolate_place_wrong`, `KD.Geo.interpolate_steps_partial`, `KD.Geo.interpolate_image_wrong`, `KD.Geo.interpolate_quads_wrong`, `KD.Geo.old_position`, `KD.Geo.old_units_wrong`, `KD.Geo.old_units_partial`, `KD.Geo.old_read`, `KD.Geo.old_box`, `KD.Geo.old_assemble`, `KD.Geo.old_assemble_fails`, `KD.Geo.old_assemble_missing`, `KD.count_files`, `KD.count_trains`, `KD.count_trains_same_partial`, `KD.count_outcome`, `KD.count_order`, `KD.ls_many_code`, `KD.ls_file_wrong`, `KD.ls_one_kinds`, `KD.ls_one_file`, `KD.ls_many_kinds`, `KD.cli_number`, `KD.report_reads_back`, `KD.report_distinct`, `KD.run_report_distinct`, `KD.shape_lines`, `KD.toDict_inj`, `KD.run_problem_named`, `KD.index_lists_datasets`, `KD.csv_reads_back`, `KD.shapeText_inj`, `KD.shapeText_tuple`, `KD.metadata_written`, `KD.sources_nodup`, `KD.paths_names_partial`, `KD.cbf_image`, `KD.Geo.plot_near_partial`, `KD.Geo.plot_edges`, `KD.Geo.plot_units`, `KD.Geo.plot_edges_wrong`, `KD.Geo.plot_dssc_metres_wrong`, `KD.Geo.inspect_layout`, `KD.Geo.moduleName_inj`, `KD.Geo.inspect_incomplete`, `KD.Geo.compare_shows`, `KD.Geo.compare_margin_wrong`, `KD.Geo.old_plot_partial`, `KD.Geo.old_plot_wrong`, `KD.Geo.old_inspect`, `KD.Geo.old_inspect_missing`, `KD.validated_file_partial`, `KD.validated_run_partial`, `KD.validated_run_read_partial`, `KD.get_array_roi_exact`, `KD.get_array_roi_succeeds`, `KD.get_array_roi_refuses`, `KD.derived_parts`, `KD.derived_array`, `KD.derived_array_gaps`, `KD.narrowed_array`, `KD.narrowed_array_gaps`, `KD.derived_train`, `KD.derived_series`, `KD.narrowed_counts`, `KD.narrowed_counts_any`, `KD.union_keeps_data`, `KD.run_is_union_of_files`, `KD.dataframe_cells`, `KD.dataframe_rows`, `KD.dataframe_same_rows`, `KD.dataframe_succeeds`, `KD.dataframe_train_cell`, `KD.dataframe_pulse_cell`, `KD.Geo.interpolate_image`, `KD.Geo.interpolate_succeeds`, `KD.interrupted_virtual_datasets`, `KD.write_over_source_lost`, `KD.slow_array_modules`, `KD.slow_array_shape`, `KD.slow_array_cells`, `KD.slow_array_labels`, `KD.slow_array_succeeds`, `KD.slow_array_no_data`, `KD.exSlow_valid`, `KD.cxi_equals_array`, `KD.exDet_cxi_array`, `KD.serve_stream_partial`, `KD.serve_loses_rest`, `KD.virtual_entries_later`, `KD.cxi_frames_later`, `KD.cxi_module_missing`, `KD.copies_same`, `KD.copies_succeed`, `KD.cxi_refused`, `KD.cxi_complete`, `KD.cxi_interrupted`, `KD.iterate_slow`, `KD.iterate_slow_refused`, `KD.iterate_slow_agrees`, `KD.requests_answered`, `KD.feed_returns`, `KD.stop_returns`, `KD.replies_sent`, `KD.exLive_live`, `KD.exStop_live`, `KD.run_files_on_disk`, `KD.run_array_on_disk`, `KD.run_train_on_disk`, `KD.run_union_array_on_disk`, `KD.run_series_on_disk`, `KD.history_right_cache`, `KD.run_array_after_history`, `KD.Geo.old_printed`, `KD.Geo.readOutline_strLines`, `KD.Geo.moved_quads`, `KD.Geo.moved_positions`, `KD.Geo.moved_image_partial`, `KD.Geo.moved_image_wrong`, `KD.part_of_modules`, `KD.part_of_trains`, `KD.copy_detector`, `KD.copy_detector_array`, `KD.copy_detector_succeeds`, `KD.copy_detector_iterate`, `KD.copy_train`, `KD.copy_trains`, `KD.copy_counts`, `KD.copy_series_partial`, `KD.write_error_iff`, `KD.write_virtual_error_iff`, `KD.open_order`, `KD.same_available`, `KD.same_keys`, `KD.same_array`, `KD.same_dask_array`, `KD.same_counts`, `KD.same_series`, `KD.same_columns`, `KD.same_train`, `KD.same_trains`, `KD.same_select`, `KD.same_deselect`, `KD.same_history`, `KD.same_union`, `KD.write_any_order`, `KD.write_virtual_any_order`, `KD.write_files_order`, `KD.write_virtual_files_order`, `KD.write_in_some_order`, `KD.write_error_order_wrong`, `KD.detector_files_order`, `KD.detector_array_files_order`, `KD.detector_trains_files_order`, `KD.cxi_files_order`, `KD.trains_then_sources`, `KD.sources_then_trains`, `KD.sources_first`, `KD.reach_step`, `KD.reach_reads`, `KD.union_train_parts`, `KD.union_pattern_parts`, `KD.union_complement`, `KD.split_run`, `KD.split_run_array`, `KD.train_part_fits`, `KD.data_array`, `KD.data_train`, `KD.data_trains`, `KD.data_counts`, `KD.data_series`, `KD.data_series_control`, `KD.data_frame`, `KD.copy_sameData`, `KD.order_sameData`, `KD.split_sameData`, `KD.split_good`, `KD.sameData_symm`, `KD.sameData_trans`, `KD.data_select`, `KD.data_deselect`, `KD.data_select_trains`, `KD.copy_select`, `KD.copy_deselect`, `KD.copy_select_trains`, `KD.data_detector`, `KD.data_detector_array`, `KD.data_detector_succeeds`, `KD.data_detector_data`, `KD.data_detector_iterate`, `KD.data_detector_keys`, `KD.exSplit_sameData`, `KD.data_detector_zero_wrong`, `KD.data_cxi`, `KD.cxi_alike`, `KD.Geo.images_each`, `KD.Geo.images_each_out`, `KD.Geo.images_refused`, `KD.Geo.output_array`, `KD.Geo.stacked_images`, `KD.Geo.reuse_output`, `KD.Geo.output_as_new`, `KD.union_exact`, `KD.union_exact_gaps`, `KD.union_no_more_partial`, `KD.union_no_more_uses_partial`, `KD.opened_hides_nothing`, `KD.run_stack`, `KD.iter_stack_partial`, `KD.Geo.run_images`, `KD.Geo.iter_images_partial`, `KD.loop_prefix`, `KD.loop_items`, `KD.det_loop_prefix`, `KD.det_loop_items`, `KD.get_array_any_index`, `KD.get_array_gaps_partial`, `KD.get_array_right_iff`, `KD.get_array_any_works`, `KD.dask_array_any_index`, `KD.write_any_index`, `KD.copy_gaps_partial`, `KD.copy_cxi`, `KD.copy_ready`, `KD.copy_dask`, `KD.data_dask`, `KD.narrowed_dask`, `KD.cxi_data_link`, `KD.cxi_paths`, `KD.cxi_axes_partial`, `KD.cxi_modules_axis_partial`, `KD.cxi_modules_axis_wrong`, `KD.cxi_cell_axis_wrong`, `KD.cache_text`, `KD.load_saved_text`, `KD.load_cut_short`, `KD.run_directory_cut_short`, `KD.json_roundtrip`, `KD.json_cut_short`, `KD.get_array_list_exact_partial`, `KD.get_array_list_elements`, `KD.get_array_list_succeeds`, `KD.get_array_list_refuses`, `KD.get_array_list_apart_wrong`, `KD.Geo.crystfel_text`, `KD.Geo.crystfel_text_tile`, `KD.Geo.crystfel_text_injective`, `KD.Mp.message_bytes`, `KD.Mp.message_bytes_succeeds`, `KD.Mp.message_bytes_refuses`, `KD.Mp.packb_unpackb`, `KD.info_lines`, `KD.info_text_injective`, `KD.durationSays_unique`, `KD.info_screen`, `KD.Mp.message_bytes_v1_partial`, `KD.Mp.message_bytes_v1_iff`, `KD.ls_run_line_injective`, `KD.get_array_mask`, `KD.get_array_mask_length`, `KD.get_array_mask_succeeds`, `KD.get_array_mask_as_list`

## propext, Quot.sound

`KD.open_train_ids`, `KD.open_missing_metadata`, `KD.key_lookup_partial`, `KD.requests_independent_of_history`, `KD.request_cached`, `KD.with_block_allowed`, `KD.reachable_noConflict`, `KD.at_most_one_file`, `KD.open_paths_files`, `KD.pattern_elements`, `KD.select_star_brings_back`, `KD.select_dict_brings_back`, `KD.select_dict_missing_source`, `KD.select_dict_empty_keys_type_error`, `KD.deselect_missing_key`, `KD.select_trains_by_id_zero`, `KD.select_trains_by_index_slice_zero`, `KD.select_trains_other`, `KD.select_after_trains_fails`, `KD.contiguousRegions_exact`, `KD.get_array_no_trains`, `KD.get_array_out_of_order`, `KD.dask_array_unchecked`, `KD.dask_array_ignores_keys`, `KD.train_from_id_error`, `KD.train_from_id_selection`, `KD.train_from_id_control_gap`, `KD.trains_selection`, `KD.get_data_counts_control_fails`, `KD.dask_array_wrong`, `KD.dask_array_truncated_wrong`, `KD.get_dataframe_succeeds`, `KD.get_dataframe_selection`, `KD.control_index_duplicates`, `KD.index_order_unchecked`, `KD.write_interleaved_wrong`, `KD.write_reversed_wrong`, `KD.write_duplicated_wrong`, `KD.virtual_truncated_wrong`, `KD.virtual_control_gap_wrong`, `KD.write_no_data`, `KD.lengths_report`, `KD.validation_overflow_wrong`, `KD.validate_run_returns`, `KD.validate_run_conflict_wrong`, `KD.validation_crashes`, `KD.load_succeeds`, `KD.load_error_iff`, `KD.get_error_iff`, `KD.run_files_exact`, `KD.lone_process`, `KD.dump_whole`, `KD.dump_read_whole`, `KD.dump_step`, `KD.dump_present`, `KD.dump_others`, `KD.dump_no_leftovers`, `KD.dump_crashed`, `KD.save_nothing_new`, `KD.cache_places`, `KD.matchRunPath_iff`, `KD.runPath_unique`, `KD.view_slice_refused`, `KD.view_all_axis_wrong`, `KD.view_negative_wrong`, `KD.view_reads_wrong`, `KD.pulse_list_normalised`, `KD.get_array_index_wrong`, `KD.iterate_unsorted_wrong`, `KD.get_array_empty_last_wrong`, `KD.iterate_empty_wrong`, `KD.cxi_index_wrong`, `KD.cxi_first_module_wrong`, `KD.cxi_pulse_9999_wrong`, `KD.cxi_pulse_high_wrong`, `KD.stream_progress`, `KD.second_start`, `KD.stream_bounded`, `KD.stop_delivers_partial`, `KD.restart_continues`, `KD.stream_stops`, `KD.unknown_request`, `KD.stop_hangs`, `KD.stop_hangs_wrong`, `KD.message_v1_iff`, `KD.dummyStamps_ok`, `KD.serve_files_error`, `KD.cli_ignores_options`, `KD.cli_options_ignored_wrong`, `KD.cli_serves_all`, `KD.Geo.tileOf_lt`, `KD.Geo.split_fails`, `KD.Geo.coords_dssc`, `KD.Geo.box_succeeds`, `KD.Geo.box_fails`, `KD.Geo.no_pixel_lost`, `KD.Geo.coords_positions`, `KD.Geo.coords_positions_dssc`, `KD.Geo.corners_eq`, `KD.Geo.crystfel_written`, `KD.Geo.reads_unique`, `KD.Geo.crystfel_missing`, `KD.Geo.rigid_in_file`, `KD.Geo.lpd_quads_fails`, `KD.Geo.agipd_quads_fails`, `KD.Geo.split_old_reading`, `KD.Geo.split_old_fails`, `KD.proposal_name`, `KD.run_name`, `KD.open_run_found`, `KD.open_run_missing`, `KD.open_run_path_partial`, `KD.quick_position_partial`, `KD.quick_init_wrong`, `KD.quick_init`, `KD.quick_data`, `KD.filename_detector`, `KD.filename_other`, `KD.filename_unknown_wrong`, `KD.info_reversed_wrong`, `KD.train_info_unselected`, `KD.Geo.h5_positions`, `KD.Geo.h5_missing`, `KD.Geo.box_no_tiles`, `KD.Geo.interpolate_singular`, `KD.Geo.old_read_missing`, `KD.count_trains_wrong`, `KD.ls_one_code_partial`, `KD.ls_runs`, `KD.cli_output`, `KD.cli_default_partial`, `KD.cli_other`, `KD.cli_number_text`, `KD.cli_detector`, `KD.cli_root_wrong`, `KD.dirname_file`, `KD.toDict_oneLine`, `KD.validate_file_exit`, `KD.validate_run_exit`, `KD.Geo.plot_fails`, `KD.Geo.inspect_units`, `KD.Geo.compare_tip`, `KD.Geo.compare_missing`, `KD.Geo.old_plot_fails`, `KD.validated_control_wrong`, `KD.get_array_natural`, `KD.union_of_parts_gap`, `KD.Geo.interpolate_missing_wrong`, `KD.interrupted_write`, `KD.failed_write_unreadable`, `KD.write_steps_grow`, `KD.write_index_grows`, `KD.interrupted_datasets`, `KD.interrupted_write_wrong`, `KD.write_other_files`, `KD.write_open_refused`, `KD.write_elsewhere`, `KD.write_over_source_wrong`, `KD.exSlow_array`, `KD.serve_calls_trains`, `KD.serve_error_no_stop`, `KD.serve_refused`, `KD.serve_starts`, `KD.entries_unchanged`, `KD.entries_missing`, `KD.virtual_file_now`, `KD.virtual_dataset_now`, `KD.virtual_other_files`, `KD.virtual_missing_wrong`, `KD.frames_unchanged`, `KD.cxi_file_now`, `KD.cxi_missing_wrong`, `KD.cxi_other_files`, `KD.cxi_sources_safe`, `KD.cxi_collect_first`, `KD.cxi_emptied_first`, `KD.cxi_interrupted_datasets`, `KD.cxi_target_lost_wrong`, `KD.exSlow_iterate`, `KD.exSlow_good`, `KD.Geo.moved_coords`, `KD.copy_series_wrong`, `KD.same_selectTrains`, `KD.order_matters_wrong`, `KD.detector_shape_order_wrong`, `KD.cxi_order_wrong`, `KD.trains_first_fails_wrong`, `KD.part_out_of_order_wrong`, `KD.copy_select_trains_wrong`, `KD.copy_select_star_wrong`, `KD.Geo.images_shape`, `KD.union_no_more_wrong`, `KD.single_frame_wrong`, `KD.loop_complete`, `KD.loop_selection`, `KD.det_loop_complete`, `KD.get_array_gap_wrong`, `KD.copy_gap_wrong`, `KD.dask_layout_wrong`, `KD.get_array_list_apart_example`, `KD.Geo.crystfel_semicolon_wrong`, `KD.duration_says`, `KD.Mp.message_bytes_v1_metadata_wrong`, `KD.ls_run_line`
