{
 "claims": [
  {
   "property": "C01",
   "status": "proved",
   "theorems": [
    "KD.open_train_ids",
    "KD.open_index_rows",
    "KD.open_zero_shifts_index"
   ],
   "note": ""
  },
  {
   "property": "C02",
   "status": "proved",
   "theorems": [
    "KD.open_old_index"
   ],
   "note": ""
  },
  {
   "property": "C03",
   "status": "proved",
   "theorems": [
    "KD.open_sources",
    "KD.open_bad_category",
    "KD.open_missing_metadata"
   ],
   "note": ""
  },
  {
   "property": "C04",
   "status": "partial",
   "theorems": [
    "KD.keys_exact",
    "KD.keys_unknown_source",
    "KD.key_lookup_partial",
    "KD.key_lookup_dot_fails",
    "KD.keys_for_source_opened",
    "KD.keys_for_source_selected"
   ],
   "note": "Lookup of a listed key is proved for dataset names without dots; with dots it is false (key_lookup_dot_fails)."
  },
  {
   "property": "C05",
   "status": "proved",
   "theorems": [
    "KD.requests_independent_of_history",
    "KD.failed_request_not_cached",
    "KD.request_cached",
    "KD.file_open_after"
   ],
   "note": ""
  },
  {
   "property": "C06",
   "status": "proved",
   "theorems": [
    "KD.requests_independent_of_history",
    "KD.file_open_after",
    "KD.with_block_allowed"
   ],
   "note": "Reads are single requests; a train iterator paused across a close is not covered."
  },
  {
   "property": "C07",
   "status": "proved",
   "theorems": [
    "KD.open_collection_train_ids"
   ],
   "note": ""
  },
  {
   "property": "C08",
   "status": "proved",
   "theorems": [
    "KD.conflict_exact",
    "KD.reachable_noConflict",
    "KD.at_most_one_file"
   ],
   "note": ""
  },
  {
   "property": "C09",
   "status": "proved",
   "theorems": [
    "KD.sources_exact",
    "KD.open_sources_selected"
   ],
   "note": ""
  },
  {
   "property": "C10",
   "status": "proved",
   "theorems": [
    "KD.open_paths_files",
    "KD.open_paths_error",
    "KD.open_one_path",
    "KD.run_directory_empty"
   ],
   "note": ""
  },
  {
   "property": "C11",
   "status": "proved",
   "theorems": [
    "KD.globMatch_reads",
    "KD.every_pattern_reads",
    "KD.globMatch_iff",
    "KD.pattern_elements",
    "KD.globMatch_literal",
    "KD.globMatch_star",
    "KD.globMatch_unclosed"
   ],
   "note": ""
  },
  {
   "property": "C12",
   "status": "proved",
   "theorems": [
    "KD.select_globs_exact",
    "KD.select_globs_error"
   ],
   "note": "The key pattern * is covered for sources of which all keys are selected; see C13 for the others."
  },
  {
   "property": "C13",
   "status": "partial",
   "theorems": [
    "KD.select_never_widens_partial",
    "KD.select_brings_back_iff",
    "KD.select_keeps_iff",
    "KD.reachable_selection_nodup",
    "KD.select_star_brings_back",
    "KD.select_dict_brings_back"
   ],
   "note": "False for the key pattern * and for dicts naming pairs not available: select_star_brings_back, select_dict_brings_back; select_brings_back_iff says exactly what comes back."
  },
  {
   "property": "C14",
   "status": "partial",
   "theorems": [
    "KD.select_dict_exact_partial",
    "KD.select_dict_missing_source",
    "KD.select_dict_empty_keys_type_error"
   ],
   "note": "The part about empty key sets is false: TypeError."
  },
  {
   "property": "C15",
   "status": "partial",
   "theorems": [
    "KD.deselect_complement_partial",
    "KD.deselect_exact",
    "KD.deselect_error_iff",
    "KD.deselect_missing_key"
   ],
   "note": "deselect_exact says what deselect leaves, in all cases. That it is the complement of select assumes that selected keys exist; dict selections do not check this and then the property fails (deselect_missing_key)."
  },
  {
   "property": "C16",
   "status": "proved",
   "theorems": [
    "KD.union_selections_exact",
    "KD.union_selections_perm",
    "KD.union_selections_grouping"
   ],
   "note": ""
  },
  {
   "property": "C17",
   "status": "proved",
   "theorems": [
    "KD.union_error_iff",
    "KD.union_trains_files",
    "KD.union_available",
    "KD.union_order_independent",
    "KD.union_grouping"
   ],
   "note": ""
  },
  {
   "property": "C18",
   "status": "partial",
   "theorems": [
    "KD.select_trains_by_id_slice_partial",
    "KD.select_trains_by_id_range_partial",
    "KD.select_trains_by_id_value_error",
    "KD.select_trains_by_id_gap_type_error",
    "KD.select_trains_by_id_outcome",
    "KD.select_trains_by_id_zero"
   ],
   "note": "False for plain int bounds falling in a gap: TypeError (select_trains_by_id_gap_type_error)."
  },
  {
   "property": "C19",
   "status": "proved",
   "theorems": [
    "KD.select_trains_by_index_slice_up",
    "KD.select_trains_by_index_slice_down",
    "KD.select_trains_by_index_slice_zero"
   ],
   "note": ""
  },
  {
   "property": "C20",
   "status": "proved",
   "theorems": [
    "KD.select_trains_by_id_list"
   ],
   "note": ""
  },
  {
   "property": "C21",
   "status": "proved",
   "theorems": [
    "KD.select_trains_by_index_list",
    "KD.select_trains_other"
   ],
   "note": ""
  },
  {
   "property": "C22",
   "status": "proved",
   "theorems": [
    "KD.select_trains_files",
    "KD.select_trains_keeps_data",
    "KD.select_keeps_data",
    "KD.select_commutes",
    "KD.select_after_trains_fails"
   ],
   "note": "Commutation is stated for the cases where both orders succeed; select_after_trains_fails shows that one order may raise. select_trains_keeps_data needs, before and after, only that the entries of selected trains next to each other follow each other in the file (true of every index without gaps)."
  },
  {
   "property": "C23",
   "status": "proved",
   "theorems": [
    "KD.contiguousRegions_exact",
    "KD.contiguousRegions_cover",
    "KD.contiguousRegions_empty"
   ],
   "note": ""
  },
  {
   "property": "C24",
   "status": "proved",
   "theorems": [
    "KD.get_array_exact",
    "KD.get_array_no_trains"
   ],
   "note": "get_array_no_trains: IndexError for a file without trains, hence the condition in the property."
  },
  {
   "property": "C25",
   "status": "partial",
   "theorems": [
    "KD.get_array_order",
    "KD.get_array_order_gaps",
    "KD.get_array_in_order_partial",
    "KD.get_array_out_of_order"
   ],
   "note": "False for files whose train ranges interleave: get_array_out_of_order. get_array_order says exactly when the labels are in order; get_array_order_gaps says so for indexes which are not contiguous."
  },
  {
   "property": "C26",
   "status": "partial",
   "theorems": [
    "KD.field_errors_partial",
    "KD.get_array_field_errors",
    "KD.get_data_counts_field_errors",
    "KD.get_series_field_errors",
    "KD.dask_array_unchecked",
    "KD.dask_array_field_errors",
    "KD.dask_array_ignores_keys"
   ],
   "note": "get_dask_array does not check the field: dask_array_unchecked."
  },
  {
   "property": "C27",
   "status": "proved",
   "theorems": [
    "KD.get_array_refuses_mismatch"
   ],
   "note": ""
  },
  {
   "property": "C28",
   "status": "partial",
   "theorems": [
    "KD.train_from_id_sources",
    "KD.train_from_id_instrument",
    "KD.train_from_id_control_partial",
    "KD.train_from_id_control_row",
    "KD.train_from_id_control_iff",
    "KD.train_from_id_succeeds",
    "KD.train_from_id_error",
    "KD.train_from_id_selection",
    "KD.train_from_id_control_gap"
   ],
   "note": "Proved for instrument data and for control data with one entry per train of the file. False for control data whose index has gaps: train_from_id_control_gap; train_from_id_control_iff says exactly when it is right."
  },
  {
   "property": "C29",
   "status": "proved",
   "theorems": [
    "KD.trains_agree",
    "KD.trains_selection",
    "KD.trains_succeeds",
    "KD.trains_shows"
   ],
   "note": ""
  },
  {
   "property": "C30",
   "status": "proved",
   "theorems": [
    "KD.trains_require_all",
    "KD.trains_succeeds"
   ],
   "note": "GoodData: indexes fit the datasets; control data has one entry for every train of its file."
  },
  {
   "property": "C31",
   "status": "proved",
   "theorems": [
    "KD.train_from_index"
   ],
   "note": ""
  },
  {
   "property": "C32",
   "status": "proved",
   "theorems": [
    "KD.get_data_counts_indexed",
    "KD.get_data_counts_exact",
    "KD.get_data_counts_array",
    "KD.get_data_counts_control_fails"
   ],
   "note": "For control data the method fails: get_data_counts_control_fails."
  },
  {
   "property": "C33",
   "status": "proved",
   "theorems": [
    "KD.get_series_exact",
    "KD.get_series_succeeds",
    "KD.get_series_one_dim"
   ],
   "note": ""
  },
  {
   "property": "C34",
   "status": "partial",
   "theorems": [
    "KD.dask_array_eq_partial",
    "KD.dask_array_wrong",
    "KD.dask_array_truncated_wrong",
    "KD.dask_array_shapes",
    "KD.dask_chunk_size"
   ],
   "note": "A run of selected trains without data makes dask divide by zero: dask_array_wrong. Of dask, only joining and the division are modelled."
  },
  {
   "property": "C35",
   "status": "proved",
   "theorems": [
    "KD.get_dataframe_columns",
    "KD.get_dataframe_succeeds",
    "KD.get_dataframe_selection"
   ],
   "note": "How pandas aligns the rows of the columns is not modelled."
  },
  {
   "property": "C36",
   "status": "proved",
   "theorems": [
    "KD.written_instrument_index",
    "KD.written_control_index",
    "KD.control_index_duplicates",
    "KD.index_order_unchecked",
    "KD.index_out_of_order_wrong"
   ],
   "note": "The assertion in the code against labels out of order never fires, because differences of unsigned numbers are never negative: index_order_unchecked. For such labels the index is wrong: index_out_of_order_wrong."
  },
  {
   "property": "C37",
   "status": "partial",
   "theorems": [
    "KD.write_read_partial",
    "KD.write_succeeds_iff",
    "KD.write_same_iff",
    "KD.write_interleaved_wrong"
   ],
   "note": "Proved for files whose trains do not interleave; false otherwise: write_interleaved_wrong. write_same_iff says exactly when the entries are the same, if those of different trains differ. write_succeeds_iff says exactly when write() succeeds, for names which do not collide in one file. The index of the files may have gaps; only the entries of selected trains next to each other must follow each other (CopyGaps has an example)."
  },
  {
   "property": "C38",
   "status": "partial",
   "theorems": [
    "KD.write_read_partial",
    "KD.write_same_iff",
    "KD.write_reversed_wrong",
    "KD.write_duplicated_wrong",
    "KD.write_interleaved_wrong"
   ],
   "note": "Proved for increasing trains; false for reversed or repeated trains and for interleaved files."
  },
  {
   "property": "C39",
   "status": "partial",
   "theorems": [
    "KD.virtual_equals_copy_partial",
    "KD.virtual_truncated_wrong",
    "KD.virtual_read_partial",
    "KD.virtual_dataset_array",
    "KD.virtual_dataset_read",
    "KD.virtual_control_gap_wrong",
    "KD.write_no_data",
    "KD.write_virtual_succeeds_iff",
    "KD.virtual_dataset_succeeds_iff"
   ],
   "note": "Virtual files equal copied ones whenever write() succeeds, for fields whose entries in selected trains next to each other follow each other (gaps elsewhere are allowed). Reading single trains of control data missing for some trains gives wrong data: virtual_control_gap_wrong."
  },
  {
   "property": "C40",
   "status": "proved",
   "theorems": [
    "KD.written_file_valid",
    "KD.virtual_file_valid"
   ],
   "note": "Under the conditions under which written files can be read back (write_read_partial, virtual_read_partial)."
  },
  {
   "property": "C41",
   "status": "partial",
   "theorems": [
    "KD.index_validation_partial",
    "KD.index_report_exact",
    "KD.lengths_report",
    "KD.outside_report_exact",
    "KD.index_report_true",
    "KD.f64_nearest",
    "KD.validation_overflow_wrong",
    "KD.validation_rounding_wrong"
   ],
   "note": "Proved when the ends of trains fit in 64 bits and datasets have less than 2^53 entries; false otherwise."
  },
  {
   "property": "C42",
   "status": "proved",
   "theorems": [
    "KD.train_id_check_exact"
   ],
   "note": ""
  },
  {
   "property": "C43",
   "status": "partial",
   "theorems": [
    "KD.validate_run_exact_partial",
    "KD.validate_run_returns",
    "KD.validate_run_needs_cache",
    "KD.validate_run_conflict_wrong",
    "KD.validation_crashes"
   ],
   "note": "When it returns, the report is exact. It does not always return: every run with a usable file without a cache entry makes it fail (validate_run_needs_cache)."
  },
  {
   "property": "C44",
   "status": "proved",
   "theorems": [
    "KD.cache_entry_valid",
    "KD.cache_entry_used",
    "KD.load_succeeds",
    "KD.load_error_iff",
    "KD.get_error_iff"
   ],
   "note": ""
  },
  {
   "property": "C45",
   "status": "partial",
   "theorems": [
    "KD.cache_history_partial",
    "KD.cache_history_stable",
    "KD.cache_history_complete",
    "KD.cache_history_honest",
    "KD.run_directory_cache",
    "KD.run_files_exact",
    "KD.lone_process",
    "KD.history_byname_wrong",
    "KD.history_modified_wrong"
   ],
   "note": "Proved for histories in which files are replaced or removed and file handles can be had. False when a file is modified in place while being opened, or when save() falls back to stat by name."
  },
  {
   "property": "C46",
   "status": "proved",
   "theorems": [
    "KD.dump_whole",
    "KD.dump_read_whole",
    "KD.dump_step",
    "KD.dump_succeeds",
    "KD.dump_present",
    "KD.dump_others",
    "KD.dump_no_leftovers",
    "KD.dump_crashed",
    "KD.dump_leftover_wrong"
   ],
   "note": "Atomicity of os.replace is assumed; power failures are not modelled (as the docstring says)."
  },
  {
   "property": "C47",
   "status": "partial",
   "theorems": [
    "KD.save_then_load_partial",
    "KD.save_nothing_new",
    "KD.save_place",
    "KD.save_shadowed_wrong",
    "KD.save_other_error"
   ],
   "note": "Proved when no earlier location holds a readable outdated document; false otherwise (save_shadowed_wrong). Permission errors are never raised by save; other OSErrors are (save_other_error)."
  },
  {
   "property": "C48",
   "status": "proved",
   "theorems": [
    "KD.cache_places",
    "KD.matchRunPath_iff",
    "KD.runPath_unique"
   ],
   "note": ""
  },
  {
   "property": "C49",
   "status": "proved",
   "theorems": [
    "KD.stack_places",
    "KD.dataOf_unique",
    "KD.stack_axis_iff"
   ],
   "note": "For every train which can be stacked and every axis in range. The conversion of the fill value to the dtype is a parameter."
  },
  {
   "property": "C50",
   "status": "partial",
   "theorems": [
    "KD.stack_accepts_iff",
    "KD.stack_errors_partial",
    "KD.stack_value_errors",
    "KD.stack_shapes_refused",
    "KD.stack_axis_iff",
    "KD.stack_scalar_wrong",
    "KD.stack_empty_out_of_range_wrong",
    "KD.stack_axis_wraps_wrong"
   ],
   "note": "Accepted trains and errors are characterised exactly. False in three corners: mixed shapes with a 0-dimensional array give IndexError, empty modules outside the detector are accepted, and axes below -ndim are accepted."
  },
  {
   "property": "C51",
   "status": "partial",
   "theorems": [
    "KD.view_single",
    "KD.view_single_beyond",
    "KD.view_all",
    "KD.view_all_partial",
    "KD.view_slice_refused",
    "KD.stack_view_good",
    "KD.view_all_axis_wrong",
    "KD.view_negative_wrong"
   ],
   "note": "One module: proved for all indices in range. All modules: proved when two dimensions stay after the module axis; otherwise the new view has the wrong axis (view_all_axis_wrong)."
  },
  {
   "property": "C52",
   "status": "partial",
   "theorems": [
    "KD.view_reads_partial",
    "KD.view_reads_wrong"
   ],
   "note": "False after reading an index below -modules (view_reads_wrong); proved for every other history."
  },
  {
   "property": "C53",
   "status": "proved",
   "theorems": [
    "KD.stack_data_order",
    "KD.stack_data_succeeds",
    "KD.stack_data_empty",
    "KD.stack_data_dtypes",
    "KD.stack_data_errors"
   ],
   "note": ""
  },
  {
   "property": "C54",
   "status": "partial",
   "theorems": [
    "KD.pulse_slice_refused",
    "KD.pulse_slice_normalised",
    "KD.pulse_list_normalised",
    "KD.pulse_negative_refused_partial",
    "KD.pulse_negative_wrong",
    "KD.pulse_list_exact",
    "KD.pulse_other_refused",
    "KD.checkPulses_asked"
   ],
   "note": "Negative numbers in lists are not refused: the check comes after a cast to uint64 and never fires (pulse_negative_wrong)."
  },
  {
   "property": "C55",
   "status": "partial",
   "theorems": [
    "KD.get_array_exact_partial",
    "KD.get_array_succeeds",
    "KD.get_array_unordered",
    "KD.iterate_exact",
    "KD.iterate_exact_partial",
    "KD.iterate_labels",
    "KD.get_array_runs_partial",
    "KD.get_array_runs_succeeds",
    "KD.get_array_index_wrong",
    "KD.exDet_valid",
    "KD.exRuns_valid"
   ],
   "note": "Exact for files whose index is right within each run of consecutive kept trains, contiguous indexes included, with a theorem when the array is made; for files with other indexes frames are attributed to the wrong train (get_array_index_wrong). Lists for by_index must increase (get_array_unordered). Iterating is exact for any index inside the data."
  },
  {
   "property": "C56",
   "status": "partial",
   "theorems": [
    "KD.get_array_exact_partial",
    "KD.get_array_succeeds",
    "KD.iterate_exact",
    "KD.iterate_exact_partial",
    "KD.iterate_labels",
    "KD.iterate_unsorted_wrong",
    "KD.get_array_runs_partial",
    "KD.get_array_runs_succeeds",
    "KD.get_array_empty_last_wrong",
    "KD.exDet_valid",
    "KD.exRuns_valid"
   ],
   "note": "Missing frames are fill values, present ones are at their labels, for files whose index is right within each run of consecutive kept trains; a train without frames and with its index out of place at the end of a run loses frames (get_array_empty_last_wrong). Iteration with a range of IDs takes the frames between the first ones at or above its ends (iterate_exact), which is the range if IDs increase in each train (iterate_exact_partial), else not (iterate_unsorted_wrong)."
  },
  {
   "property": "C57",
   "status": "partial",
   "theorems": [
    "KD.iterate_agrees_partial",
    "KD.iterate_agrees_runs_partial",
    "KD.iterate_labels",
    "KD.iterate_trains",
    "KD.iterate_succeeds",
    "KD.iterate_unsorted_wrong",
    "KD.iterate_empty_wrong"
   ],
   "note": "Agreement proved for index selections, lists and steps of IDs, and for ranges of IDs when pulse IDs increase in each train; false otherwise (iterate_unsorted_wrong), and a train with no matching pulse may raise (iterate_empty_wrong). The index need only be right within runs of consecutive trains (iterate_agrees_runs_partial)."
  },
  {
   "property": "C58",
   "status": "proved",
   "theorems": [
    "KD.detector_trains",
    "KD.detector_min_modules",
    "KD.detector_frames",
    "KD.detector_fails",
    "KD.exDet_hasImages"
   ],
   "note": ""
  },
  {
   "property": "C59",
   "status": "proved",
   "theorems": [
    "KD.train_chunks_runs",
    "KD.runs_unique"
   ],
   "note": ""
  },
  {
   "property": "C60",
   "status": "partial",
   "theorems": [
    "KD.get_array_exact_partial",
    "KD.get_array_labels",
    "KD.get_array_succeeds",
    "KD.get_array_runs_partial",
    "KD.get_array_runs_succeeds",
    "KD.get_array_index_wrong",
    "KD.get_array_empty_last_wrong"
   ],
   "note": "Labels, values and shape exact for files whose index is right within each run of consecutive kept trains; for others frames can be mislabelled (get_array_index_wrong)."
  },
  {
   "property": "C61",
   "status": "proved",
   "theorems": [
    "KD.identify_sources",
    "KD.detector_sources",
    "KD.detector_modules",
    "KD.duplicate_module_refused",
    "KD.moduleNumber_iff",
    "KD.detectorName_iff",
    "KD.find_detector"
   ],
   "note": ""
  },
  {
   "property": "C62",
   "status": "proved",
   "theorems": [
    "KD.cxi_file",
    "KD.cxi_datasets",
    "KD.cxi_written",
    "KD.collectLayout_cells",
    "KD.mapChunk_returns",
    "KD.exGaps_follows",
    "KD.cxi_index_wrong",
    "KD.cxi_first_module_wrong"
   ],
   "note": "The index needs to be right only in each stretch of trains of the detector object: there can be gaps in the data between stretches, and trains without frames can point anywhere (FollowsIn; exGaps_follows has such files). cxi_index_wrong: if the entries of a file are not in the order of the trains, rows of others are taken. cxi_file: what is in each cell of each dataset (CxiCells), the train IDs, identifiers and module numbers, whenever the file is written. cxi_written: the file is written when keys are present with the same entry sizes in all modules and pulse IDs are consistent. mapChunk_returns: the mapping loop ends for any file contents. cxi_first_module_wrong: no file is written when the first module has no file with a selected train, although all the data is there."
  },
  {
   "property": "C63",
   "status": "partial",
   "theorems": [
    "KD.cxi_pulse_ids_partial",
    "KD.cxi_pulse_ids_exact",
    "KD.cxi_pulse_9999_wrong",
    "KD.cxi_pulse_high_wrong"
   ],
   "note": "Exactly the consistent pulse IDs are accepted if all pulse IDs are below 9999. Missing: the pulse ID 9999, which stands for missing data in the code: an inconsistency with it is accepted (cxi_pulse_9999_wrong), and higher IDs are refused when modules are missing (cxi_pulse_high_wrong). cxi_pulse_ids_exact says exactly which IDs are accepted, for all IDs."
  },
  {
   "property": "C64",
   "status": "proved",
   "theorems": [
    "KD.stream_order",
    "KD.stream_order_of_calls",
    "KD.stream_progress",
    "KD.second_start",
    "KD.exServe_once"
   ],
   "note": "For every interleaving of feeding threads, interface threads, clients, network losses, starts and stops (also double starts), n-th reply = n-th train fed; replies to a client never exceed its requests; received replies are among the sent ones. Network: see Model/Stream.lean."
  },
  {
   "property": "C65",
   "status": "proved",
   "theorems": [
    "KD.stream_bounded",
    "KD.stream_progress"
   ],
   "note": "Bound, no loss from the buffer, feed() returns exactly when there is room (maxlen <= 0: no limit)."
  },
  {
   "property": "C66",
   "status": "partial",
   "theorems": [
    "KD.stop_delivers_partial",
    "KD.restart_continues",
    "KD.stream_stops",
    "KD.unknown_request",
    "KD.nothing_after_stop",
    "KD.stop_sends_one",
    "KD.stop_hangs",
    "KD.stop_loses_wrong",
    "KD.stop_drops_wrong",
    "KD.stop_hangs_wrong",
    "KD.double_start_wrong"
   ],
   "note": "False of the code: stop() leaves trains in the buffer unsent, closes the socket with LINGER 0 (a sent reply can be dropped), and does not return while the thread waits for a request or for a train. Proved: what is not sent stays in the buffer in order and is sent after a restart."
  },
  {
   "property": "C67",
   "status": "proved",
   "theorems": [
    "KD.message_decodes",
    "KD.message_sorted",
    "KD.message_succeeds",
    "KD.message_fails",
    "KD.message_errors",
    "KD.message_v1",
    "KD.message_v1_iff",
    "KD.protocol_versions"
   ],
   "note": "Decoding by the karabo_bridge protocol as specified in Spec/Stream.lean; msgpack itself is not modelled (a part carries the packed object)."
  },
  {
   "property": "C68",
   "status": "partial",
   "theorems": [
    "KD.dummy_timestamps_partial",
    "KD.dummyStamps_ok",
    "KD.dummyStamps_succeeds",
    "KD.dummy_mutates_wrong",
    "KD.dummy_mutates_meta_wrong",
    "KD.dummy_v1_wrong",
    "KD.dummy_overwrites"
   ],
   "note": "Timestamps are in every 2.2 message and given ones are kept, but the arguments are modified in place, and protocol 1.0 messages can lack them."
  },
  {
   "property": "C69",
   "status": "partial",
   "theorems": [
    "KD.serve_files_selects_partial",
    "KD.serve_files_error",
    "KD.trains_available",
    "KD.cli_ignores_options",
    "KD.cli_options_ignored_wrong",
    "KD.cli_serves_all"
   ],
   "note": "serve_files honours its patterns; the command line program ignores --source and --key."
  },
  {
   "property": "C70",
   "status": "proved",
   "theorems": [
    "KD.Geo.shapes_agree",
    "KD.Geo.tile_region",
    "KD.Geo.tileOf_lt",
    "KD.Geo.tiles_partition",
    "KD.Geo.tile_inside",
    "KD.Geo.tile_origin"
   ],
   "note": "Regions of AGIPD, LPD and DSSC modules against the layout in Spec/Geometry.lean."
  },
  {
   "property": "C71",
   "status": "proved",
   "theorems": [
    "KD.Geo.splitRows_ok",
    "KD.Geo.splitCols_ok",
    "KD.Geo.split_regions",
    "KD.Geo.split_fails"
   ],
   "note": "np.split is modelled; arrays of other sizes raise ValueError."
  },
  {
   "property": "C72",
   "status": "proved",
   "theorems": [
    "KD.Geo.coords_to_tile",
    "KD.Geo.coords_dssc",
    "KD.Geo.coords_of_pixel"
   ],
   "note": "Real positions are elements of any ordered field with floor. DSSC (no conversion defined) raises NotImplementedError."
  },
  {
   "property": "C73",
   "status": "proved",
   "theorems": [
    "KD.Geo.snap_iff",
    "KD.Geo.snap_fails",
    "KD.Geo.snaps_unique",
    "KD.Geo.axisAligned_iff",
    "KD.Geo.cell_injective",
    "KD.Geo.tile_covers_iff",
    "KD.Geo.place_tile",
    "KD.Geo.tile_pixel",
    "KD.Geo.grid_cells"
   ],
   "note": "All 8 orientations; AssertionError for a tile which is not nearest to one of them."
  },
  {
   "property": "C74",
   "status": "proved",
   "theorems": [
    "KD.Geo.box_tight",
    "KD.Geo.box_succeeds",
    "KD.Geo.box_fails",
    "KD.Geo.output_shape",
    "KD.Geo.snapped_succeeds",
    "KD.Geo.assemble_new",
    "KD.Geo.assemble_out"
   ],
   "note": ""
  },
  {
   "property": "C75",
   "status": "proved",
   "theorems": [
    "KD.Geo.assemble_new",
    "KD.Geo.assemble_out",
    "KD.Geo.no_pixel_lost",
    "KD.Geo.pixel_has_cell",
    "KD.Geo.assemble_not_aligned",
    "KD.Geo.assemble_bad_data",
    "KD.Geo.assemble_bad_out",
    "KD.Geo.assemble_bad_tiles",
    "KD.Geo.no_overlap"
   ],
   "note": "Sequential placing of tiles; extra dimensions before the module axis are not modelled. no_overlap: tiles which are apart in space do not share cells."
  },
  {
   "property": "C76",
   "status": "proved",
   "theorems": [
    "KD.Geo.pixel_positions",
    "KD.Geo.coord_position",
    "KD.Geo.positions_agree",
    "KD.Geo.coords_positions",
    "KD.Geo.coords_positions_dssc",
    "KD.Geo.corners_eq",
    "KD.Geo.centre_eq"
   ],
   "note": ""
  },
  {
   "property": "C77",
   "status": "partial",
   "theorems": [
    "KD.Geo.crystfel_written",
    "KD.Geo.crystfel_round_trip_partial",
    "KD.Geo.readAll_exists",
    "KD.Geo.reads_tile",
    "KD.Geo.reads_unique",
    "KD.Geo.crystfel_missing",
    "KD.Geo.crystfel_ranges",
    "KD.Geo.crystfel_dims",
    "KD.Geo.crystfel_header",
    "KD.Geo.crystfel_offset_wrong"
   ],
   "note": "All panel values are read back as the same tiles and ranges, but the offset along the beam is written in pixels although CrystFEL reads it in metres."
  },
  {
   "property": "C78",
   "status": "proved",
   "theorems": [
    "KD.Geo.rigid_groups",
    "KD.Geo.rigid_written",
    "KD.Geo.rigid_in_file",
    "KD.Geo.arraySplit_parts"
   ],
   "note": ""
  },
  {
   "property": "C79",
   "status": "proved",
   "theorems": [
    "KD.Geo.distortion_all",
    "KD.Geo.distortion_shifted",
    "KD.Geo.pixelCorners_eq"
   ],
   "note": ""
  },
  {
   "property": "C80",
   "status": "partial",
   "theorems": [
    "KD.Geo.lpd_units",
    "KD.Geo.agipd_units_partial",
    "KD.Geo.agipd_units_wrong",
    "KD.Geo.agipd_millimetres_wrong"
   ],
   "note": "True for LPD. False for AGIPD: the step vectors are scaled by the unit, too, so with millimetres assembling raises AssertionError."
  },
  {
   "property": "C81",
   "status": "proved",
   "theorems": [
    "KD.Geo.lpd_quads",
    "KD.Geo.lpd_quads_fails",
    "KD.Geo.lpd_tile",
    "KD.Geo.lpd_inside",
    "KD.Geo.lpd_no_overlap",
    "KD.Geo.lpd_quad_box",
    "KD.Geo.lpd_quads_no_overlap",
    "KD.Geo.agipd_quads",
    "KD.Geo.agipd_quads_fails",
    "KD.Geo.agipd_tile",
    "KD.Geo.agipd_inside",
    "KD.Geo.agipd_no_overlap"
   ],
   "note": ""
  },
  {
   "property": "C82",
   "status": "partial",
   "theorems": [
    "KD.Geo.split_old_new_partial",
    "KD.Geo.split_old_reading",
    "KD.Geo.split_old_fails",
    "KD.Geo.split_old_other_wrong"
   ],
   "note": "True for 256 x 256 modules; the old function also accepts arrays of other shapes with the same number of pixels and mixes their rows."
  },
  {
   "property": "C83",
   "status": "partial",
   "theorems": [
    "KD.proposal_name",
    "KD.run_name",
    "KD.int_names",
    "KD.padded_inj",
    "KD.open_run_found",
    "KD.open_run_missing",
    "KD.open_run_path_partial",
    "KD.open_run_zeros_wrong"
   ],
   "note": "proved for integers and for digit strings without needless leading zeros, and for the full form; false for strings with more leading zeros than the directory has (open_run_zeros_wrong)"
  },
  {
   "property": "C84",
   "status": "partial",
   "theorems": [
    "KD.quick_next_wrong",
    "KD.quick_position_partial",
    "KD.quick_valid_partial",
    "KD.quick_shows",
    "KD.quick_prev",
    "KD.quick_next",
    "KD.quick_pos_wrong",
    "KD.quick_init_wrong",
    "KD.quick_init",
    "KD.quick_without_data",
    "KD.quick_data",
    "KD.quick_display"
   ],
   "note": "false: next at the last image moves to the position after it and raises IndexError, setting pos always raises; proved: the position is never before the first or more than one after the last image, and is valid unless an IndexError was raised"
  },
  {
   "property": "C85",
   "status": "proved",
   "theorems": [
    "KD.filename_detector",
    "KD.filename_other",
    "KD.filename_fails",
    "KD.filename_unknown_wrong"
   ],
   "note": "the description of other names is a tuple instead of text (filename_unknown_wrong); names with text after the module number are recognised too"
  },
  {
   "property": "C86",
   "status": "partial",
   "theorems": [
    "KD.repr_reads_back_partial",
    "KD.repr_tuple_wrong",
    "KD.repr_inj"
   ],
   "note": "proved for all expressions except a tuple of one item (printed without its comma) and the empty tuple"
  },
  {
   "property": "C87",
   "status": "partial",
   "theorems": [
    "KD.info_exact",
    "KD.info_answers",
    "KD.info_reversed_wrong",
    "KD.detector_match",
    "KD.train_info_partial",
    "KD.train_info_all",
    "KD.train_info_unselected",
    "KD.detector_info_exact"
   ],
   "note": "False for train_info after a selection (train_info_unselected), and for info with trains in reverse order (info_reversed_wrong)."
  },
  {
   "property": "C88",
   "status": "proved",
   "theorems": [
    "KD.Geo.h5_positions",
    "KD.Geo.lpd_h5",
    "KD.Geo.dssc_h5",
    "KD.Geo.h5_missing"
   ],
   "note": ""
  },
  {
   "property": "C89",
   "status": "partial",
   "theorems": [
    "KD.Geo.invert_positions",
    "KD.Geo.invert_fails",
    "KD.Geo.invert_twice_partial",
    "KD.Geo.invert_twice_wrong"
   ],
   "note": "Positions are negated; a written file cannot be read again because the description dataset gets another name."
  },
  {
   "property": "C90",
   "status": "proved",
   "theorems": [
    "KD.Geo.box_holds",
    "KD.Geo.box_no_tiles"
   ],
   "note": ""
  },
  {
   "property": "C91",
   "status": "partial",
   "theorems": [
    "KD.Geo.interpolate_wrong",
    "KD.Geo.interpolate_place_wrong",
    "KD.Geo.interpolate_steps_partial",
    "KD.Geo.interpolate_singular",
    "KD.Geo.interpolate_image_wrong",
    "KD.Geo.interpolate_quads_wrong"
   ],
   "note": "False: the offset and the unit of the lookup are wrong; only directions are right. For all geometries made from positions of quadrants, nothing is seen in the image but for its first row and column (interpolate_quads_wrong)."
  },
  {
   "property": "C92",
   "status": "partial",
   "theorems": [
    "KD.Geo.old_position",
    "KD.Geo.old_units_wrong",
    "KD.Geo.old_units_partial",
    "KD.Geo.old_read",
    "KD.Geo.old_read_missing",
    "KD.Geo.old_box",
    "KD.Geo.old_assemble",
    "KD.Geo.old_assemble_fails",
    "KD.Geo.old_assemble_missing"
   ],
   "note": "Assembling is proved; the given unit is not used for tiles, so positions are right for millimetres only."
  },
  {
   "property": "C93",
   "status": "partial",
   "theorems": [
    "KD.count_files",
    "KD.count_trains",
    "KD.count_trains_same_partial",
    "KD.count_trains_wrong",
    "KD.count_outcome",
    "KD.count_order"
   ],
   "note": "file counts proved; the number of trains is right when all sequences have the same trains (as the comment in the code says), otherwise it is that of a sequence with the fewest files (count_trains_wrong)"
  },
  {
   "property": "C94",
   "status": "partial",
   "theorems": [
    "KD.ls_many_code",
    "KD.ls_one_code_partial",
    "KD.ls_folder_wrong",
    "KD.ls_file_wrong",
    "KD.ls_default",
    "KD.ls_runs",
    "KD.rstripSlash_iff",
    "KD.ls_one_kinds",
    "KD.ls_one_file",
    "KD.ls_many_kinds",
    "KD.ls_many_order"
   ],
   "note": "false for one folder which is not recognised (exit code 0) and for other data files among several paths (AttributeError); proved otherwise"
  },
  {
   "property": "C95",
   "status": "partial",
   "theorems": [
    "KD.cli_output",
    "KD.cli_default_partial",
    "KD.cli_default_inj",
    "KD.cli_other",
    "KD.cli_number",
    "KD.cli_number_text",
    "KD.cli_detector",
    "KD.cli_access",
    "KD.cli_root_wrong",
    "KD.dirname_file",
    "KD.dirname_root"
   ],
   "note": "proved for proposals which are not the root folder; for /raw/rNNNN the file goes to the current folder"
  },
  {
   "property": "C96",
   "status": "proved",
   "theorems": [
    "KD.report_reads_back",
    "KD.report_distinct",
    "KD.run_report_distinct",
    "KD.shape_lines",
    "KD.toDict_inj",
    "KD.toDict_oneLine",
    "KD.run_problem_named",
    "KD.validate_file_exit",
    "KD.validate_run_exit"
   ],
   "note": "names and paths without line ends"
  },
  {
   "property": "C97",
   "status": "proved",
   "theorems": [
    "KD.index_lists_datasets",
    "KD.csv_reads_back",
    "KD.shapeText_inj",
    "KD.shapeText_tuple",
    "KD.goodNames_data",
    "KD.goodNames_group"
   ],
   "note": ""
  },
  {
   "property": "C98",
   "status": "proved",
   "theorems": [
    "KD.metadata_written",
    "KD.sources_nodup"
   ],
   "note": ""
  },
  {
   "property": "C99",
   "status": "partial",
   "theorems": [
    "KD.paths_names_partial",
    "KD.paths_twice_wrong",
    "KD.paths_omits_wrong"
   ],
   "note": "proved that the lines are those of all names if no group has more than maxlen members; names of datasets are printed twice, and further members of long groups are left out"
  },
  {
   "property": "C100",
   "status": "proved",
   "theorems": [
    "KD.cbf_image",
    "KD.cbf_no_metadata"
   ],
   "note": ""
  },
  {
   "property": "C101",
   "status": "partial",
   "theorems": [
    "KD.Geo.plot_near_partial",
    "KD.Geo.plot_edges",
    "KD.Geo.plot_units",
    "KD.Geo.plot_fails",
    "KD.Geo.plot_edges_wrong",
    "KD.Geo.plot_dssc_metres_wrong"
   ],
   "note": "proved that each edge is within half a pixel of its place and which exceptions are raised; the image is stretched by half a pixel at both ends, and on axes in metres DSSC rows are shown as high as wide"
  },
  {
   "property": "C102",
   "status": "proved",
   "theorems": [
    "KD.Geo.inspect_layout",
    "KD.Geo.moduleName_inj",
    "KD.Geo.inspect_units",
    "KD.Geo.inspect_incomplete"
   ],
   "note": ""
  },
  {
   "property": "C103",
   "status": "proved",
   "theorems": [
    "KD.Geo.compare_shows",
    "KD.Geo.compare_tip",
    "KD.Geo.compare_missing",
    "KD.Geo.compare_margin_wrong"
   ],
   "note": "as a further observation, the margin of the view is a number of pixels although the axes are in metres (compare_margin_wrong)"
  },
  {
   "property": "C104",
   "status": "partial",
   "theorems": [
    "KD.Geo.old_plot_partial",
    "KD.Geo.old_plot_wrong",
    "KD.Geo.old_plot_fails",
    "KD.Geo.old_inspect",
    "KD.Geo.old_inspect_missing"
   ],
   "note": "proved where everything is drawn; the image is half a pixel off the cross"
  },
  {
   "property": "C105",
   "status": "partial",
   "theorems": [
    "KD.validated_file_partial",
    "KD.validated_run_partial",
    "KD.validated_run_read_partial",
    "KD.validated_control_wrong"
   ],
   "note": "proved for instrument data with numbers which do not overflow; control data is not validated, so the claim is false for it (validated_control_wrong)"
  },
  {
   "property": "C106",
   "status": "proved",
   "theorems": [
    "KD.get_array_roi_exact",
    "KD.get_array_roi_succeeds",
    "KD.get_array_roi_refuses",
    "KD.get_array_natural"
   ],
   "note": ""
  },
  {
   "property": "C107",
   "status": "proved",
   "theorems": [
    "KD.derived_parts",
    "KD.derived_array",
    "KD.derived_array_gaps",
    "KD.narrowed_array",
    "KD.narrowed_array_gaps",
    "KD.derived_train",
    "KD.derived_series",
    "KD.narrowed_counts",
    "KD.narrowed_counts_any",
    "KD.union_keeps_data",
    "KD.union_of_parts_gap"
   ],
   "note": "union_of_parts_gap: a union may lack data for a train which the original has, if it was in no part. The theorems ending in _gaps and _any need no contiguous index: for _gaps the entries of selected trains which are next to each other follow each other, before and after (get_array_gap_wrong of C147 shows why), for _any the index only has to lie within the data."
  },
  {
   "property": "C108",
   "status": "proved",
   "theorems": [
    "KD.run_is_union_of_files"
   ],
   "note": ""
  },
  {
   "property": "C109",
   "status": "proved",
   "theorems": [
    "KD.dataframe_cells",
    "KD.dataframe_rows",
    "KD.dataframe_same_rows",
    "KD.dataframe_succeeds",
    "KD.dataframe_train_cell",
    "KD.dataframe_pulse_cell"
   ],
   "note": "Columns of which some are labelled by train and others by train and pulse are left to pandas (parameter mixed)."
  },
  {
   "property": "C110",
   "status": "proved",
   "theorems": [
    "KD.Geo.interpolate_image",
    "KD.Geo.interpolate_succeeds",
    "KD.Geo.interpolate_missing_wrong"
   ],
   "note": "For complete geometries: with a missing module, memory which was not written is seen (interpolate_missing_wrong). scipy affine_transform is a parameter for the interpolation between pixels."
  },
  {
   "property": "C111",
   "status": "proved",
   "theorems": [
    "KD.interrupted_write",
    "KD.failed_write_unreadable",
    "KD.write_steps_grow",
    "KD.write_index_grows",
    "KD.interrupted_datasets",
    "KD.interrupted_virtual_datasets",
    "KD.interrupted_write_wrong"
   ],
   "note": "interrupted_write_wrong: the stronger claim that such a file cannot be opened is false. Steps are whole HDF5 operations; a killed process or a power failure may leave a file which HDF5 itself refuses."
  },
  {
   "property": "C112",
   "status": "partial",
   "theorems": [
    "KD.write_other_files",
    "KD.write_open_refused",
    "KD.write_elsewhere",
    "KD.write_over_source_lost",
    "KD.write_over_source_wrong"
   ],
   "note": "False when the target is a file of the collection which is not open (opened with cached information, or closed): it is emptied before it is read, the call fails and the data is lost (write_over_source_lost, for all such collections)."
  },
  {
   "property": "C113",
   "status": "proved",
   "theorems": [
    "KD.slow_array_modules",
    "KD.slow_array_shape",
    "KD.slow_array_cells",
    "KD.slow_array_labels",
    "KD.slow_array_succeeds",
    "KD.slow_array_no_data",
    "KD.exSlow_array",
    "KD.exSlow_valid"
   ],
   "note": "xarray.concat is modelled by its alignment of train labels. The index may have gaps between stretches of selected trains."
  },
  {
   "property": "C114",
   "status": "proved",
   "theorems": [
    "KD.cxi_equals_array",
    "KD.exDet_cxi_array"
   ],
   "note": ""
  },
  {
   "property": "C115",
   "status": "partial",
   "theorems": [
    "KD.serve_stream_partial",
    "KD.stop_loses_wrong",
    "KD.serve_calls_trains",
    "KD.stop_sends_one",
    "KD.serve_loses_rest",
    "KD.serve_error_no_stop",
    "KD.serve_refused",
    "KD.serve_starts"
   ],
   "note": "What is sent is right and in order (serve_stream_partial). The last sentence is false of the code: from the call of stop() on at most one more train is sent, in every execution (stop_sends_one, serve_loses_rest), so up to maxlen trains are lost; if a train cannot be read or serialized, the thread is not stopped. Protocol 2.2; numpy arrays have as many elements as their shape says and entries in files are not dicts."
  },
  {
   "property": "C116",
   "status": "partial",
   "theorems": [
    "KD.virtual_entries_later",
    "KD.entries_unchanged",
    "KD.entries_missing",
    "KD.virtual_file_now",
    "KD.virtual_dataset_now",
    "KD.virtual_other_files",
    "KD.virtual_missing_wrong"
   ],
   "note": "All but the last sentence is proved, for collections which meet the conditions of virtual_read_partial. The last sentence is false of the code: when a source file was deleted or has become shorter, the fill value (0) is read without an exception, with the counts and trains of the index (entries_missing, virtual_missing_wrong)."
  },
  {
   "property": "C117",
   "status": "partial",
   "theorems": [
    "KD.cxi_frames_later",
    "KD.frames_unchanged",
    "KD.cxi_module_missing",
    "KD.cxi_file_now",
    "KD.cxi_missing_wrong"
   ],
   "note": "The last sentence is false of the code: without the files of a module its column has fill values only, while the module is still in module_identifier and the pulse IDs are those which were copied (cxi_module_missing, cxi_missing_wrong)."
  },
  {
   "property": "C118",
   "status": "proved",
   "theorems": [
    "KD.copies_same",
    "KD.copies_succeed"
   ],
   "note": "For the collections for which write_read_partial and virtual_read_partial hold (Writable): all sources have keys, datasets have less than 2^64 entries. Copies are compared right after they were written; for virtual files whose sources change later see C116. The index of the files may have gaps; only the entries of selected trains next to each other must follow each other (CopyGaps has an example)."
  },
  {
   "property": "C119",
   "status": "partial",
   "theorems": [
    "KD.cxi_other_files",
    "KD.cxi_sources_safe",
    "KD.cxi_refused",
    "KD.cxi_collect_first",
    "KD.cxi_complete",
    "KD.cxi_interrupted",
    "KD.cxi_emptied_first",
    "KD.cxi_interrupted_datasets",
    "KD.cxi_target_lost_wrong"
   ],
   "note": "The last sentence is false of the code: sizes of images are compared by HDF5 only when the datasets are made, after the target was emptied (cxi_target_lost_wrong). Soft links and axes are in C151."
  },
  {
   "property": "C120",
   "status": "proved",
   "theorems": [
    "KD.iterate_slow",
    "KD.iterate_slow_refused",
    "KD.iterate_slow_agrees",
    "KD.exSlow_iterate",
    "KD.exSlow_good"
   ],
   "note": "xarray.concat is modelled by the sizes of dimensions: equal where both arrays have the dimension, otherwise repeated."
  },
  {
   "property": "C121",
   "status": "proved",
   "theorems": [
    "KD.requests_answered",
    "KD.feed_returns",
    "KD.stop_returns",
    "KD.replies_sent",
    "KD.exLive_live",
    "KD.exStop_live"
   ],
   "note": "Fairness is assumed of each thread, of the return of put() for waiting calls taken together, of the network, and of join(). That the conditions of stop_returns are needed is shown by stop_hangs (C66)."
  },
  {
   "property": "C122",
   "status": "proved",
   "theorems": [
    "KD.run_files_on_disk",
    "KD.run_array_on_disk",
    "KD.run_train_on_disk",
    "KD.run_union_array_on_disk",
    "KD.run_series_on_disk",
    "KD.history_right_cache",
    "KD.run_array_after_history"
   ],
   "note": "Opening the run itself is undisturbed here (C45 has what may happen meanwhile). Modification time and size are assumed to identify the content of a file, as in C45. For get_array the entries of selected trains next to each other must follow each other in the files, and the field be of one type in them (C24, C27); control data shown by train_from_id must have one entry per train (C28)."
  },
  {
   "property": "C123",
   "status": "proved",
   "theorems": [
    "KD.Geo.old_printed",
    "KD.Geo.readOutline_strLines"
   ],
   "note": "The text numpy makes of an offset is a parameter without line feeds."
  },
  {
   "property": "C124",
   "status": "partial",
   "theorems": [
    "KD.Geo.moved_quads",
    "KD.Geo.moved_positions",
    "KD.Geo.moved_coords",
    "KD.Geo.moved_image_partial",
    "KD.Geo.moved_image_wrong"
   ],
   "note": "The image is kept when the shift is an even number of pixels or no tile is half way between two pixels. Otherwise it is not: halves are rounded to the even pixel, so that tiles move relative to each other (moved_image_wrong)."
  },
  {
   "property": "C125",
   "status": "proved",
   "theorems": [
    "KD.part_of_modules",
    "KD.part_of_trains"
   ],
   "note": "Where both interfaces can be made and both arrays can be read (C58 says when making one fails). Sources must be in one category in all files. The index must be right within each run of consecutive trains of both (as for C60)."
  },
  {
   "property": "C126",
   "status": "proved",
   "theorems": [
    "KD.copy_detector",
    "KD.copy_detector_array",
    "KD.copy_detector_succeeds",
    "KD.copy_detector_iterate"
   ],
   "note": "For collections which can be written as a whole (all fields have data, of one shape and type; names as usual), modules with a key image.data, min_modules at least 1, and pulse numbers below 2700 (see C55). The index of the files may have gaps; only the entries of selected trains next to each other must follow each other (CopyGaps has an example). copy_detector_iterate: iterating over trains gives the same trains, keys and data; it asks for all keys of the modules to be selected, and for sources in the trains of the detector."
  },
  {
   "property": "C127",
   "status": "proved",
   "theorems": [
    "KD.copy_train",
    "KD.copy_trains",
    "KD.copy_counts"
   ],
   "note": "For collections which can be written as a whole, with data in good order (as in C28-C30) and one control entry in each selected train (which write checks, see C37)."
  },
  {
   "property": "C128",
   "status": "partial",
   "theorems": [
    "KD.copy_series_partial",
    "KD.copy_series_wrong"
   ],
   "note": "False in general: whether get_series labels entries with pulse IDs depends on all trains of the file, also on those which are not selected, and pulse IDs are read from the file even if they are not selected. A copy has the selected data only; there get_series may fail (copy_series_wrong: two cases). Proved where a field with several entries in some train has several in some selected train, and the pulse IDs are selected too."
  },
  {
   "property": "C129",
   "status": "proved",
   "theorems": [
    "KD.write_error_iff",
    "KD.write_virtual_error_iff"
   ],
   "note": "For files whose entries in selected trains next to each other follow each other (gaps elsewhere are allowed) and names which do not collide in one file. The exception class for disagreeing files is the generic one of get_array (Exception)."
  },
  {
   "property": "C130",
   "status": "proved",
   "theorems": [
    "KD.open_order",
    "KD.same_available",
    "KD.same_keys",
    "KD.same_array",
    "KD.same_dask_array",
    "KD.same_counts",
    "KD.same_series",
    "KD.same_columns",
    "KD.same_train",
    "KD.same_trains",
    "KD.same_select",
    "KD.same_deselect",
    "KD.same_selectTrains",
    "KD.same_history",
    "KD.same_union",
    "KD.order_matters_wrong"
   ],
   "note": "same_trains asks for data in good order when require_all is set, since an exception may be raised for one order and not for the other if a missing source is met first. order_matters_wrong shows that the condition on the keys is needed."
  },
  {
   "property": "C131",
   "status": "proved",
   "theorems": [
    "KD.write_any_order",
    "KD.write_virtual_any_order",
    "KD.write_files_order",
    "KD.write_virtual_files_order",
    "KD.write_in_some_order",
    "KD.write_error_order_wrong"
   ],
   "note": "For names as in the data format which do not collide in one file. write_error_order_wrong is the part about exceptions."
  },
  {
   "property": "C132",
   "status": "proved",
   "theorems": [
    "KD.detector_files_order",
    "KD.detector_array_files_order",
    "KD.detector_trains_files_order",
    "KD.detector_shape_order_wrong"
   ],
   "note": "For files which have the same keys for a source they share. For frames the index must be right within each run of consecutive trains. detector_shape_order_wrong shows that agreement on shapes is needed. Failure: each theorem says success in one order gives success in the other; as the relation is symmetric, failure is shared too."
  },
  {
   "property": "C133",
   "status": "proved",
   "theorems": [
    "KD.cxi_files_order",
    "KD.cxi_order_wrong"
   ],
   "note": "CxiReady is what C62 and C63 need, for all modules. cxi_order_wrong: where one module has no data in the trains of the detector object, the file is written in one order and not in another."
  },
  {
   "property": "C134",
   "status": "proved",
   "theorems": [
    "KD.trains_then_sources",
    "KD.sources_then_trains",
    "KD.sources_first",
    "KD.reach_step",
    "KD.reach_reads",
    "KD.trains_first_fails_wrong"
   ],
   "note": "Collections are compared by files, trains and the choice of keys for each source in the files (select_trains leaves sources without files in the selection). trains_first_fails_wrong shows calls which succeed in one order and raise in the other."
  },
  {
   "property": "C135",
   "status": "proved",
   "theorems": [
    "KD.union_train_parts",
    "KD.union_pattern_parts",
    "KD.union_complement"
   ],
   "note": "Same contents means the same files up to order, the same trains and the same selection (C130 shows that all reads then agree). The complement needs selected keys to exist in the files, which select with a dict does not check (C14)."
  },
  {
   "property": "C136",
   "status": "proved",
   "theorems": [
    "KD.split_run",
    "KD.split_run_array",
    "KD.train_part_fits",
    "KD.part_out_of_order_wrong"
   ],
   "note": "part_out_of_order_wrong shows why separate ranges are needed: a run whose data is in order, because a file with interleaved trains has no data for one of them, of which the same data is out of order once train 1 is left out. The index of the files may have gaps; only the entries of selected trains next to each other must follow each other (CopyGaps has an example)."
  },
  {
   "property": "C137",
   "status": "proved",
   "theorems": [
    "KD.data_array",
    "KD.data_train",
    "KD.data_trains",
    "KD.data_counts",
    "KD.data_series",
    "KD.data_series_control",
    "KD.data_frame",
    "KD.copy_sameData",
    "KD.order_sameData",
    "KD.split_sameData",
    "KD.split_good",
    "KD.sameData_symm",
    "KD.sameData_trans"
   ],
   "note": "Counts of 0 and empty arrays of instrument data are left out of the comparison: a file with a train and no entries for it and no file at all both hold no entries, and get_data_counts and iterating show the difference. data_array allows indexes with gaps, data_counts any index within the data. data_series and data_frame need, for instrument data, that fields with several entries for some train of a file have several for a selected train, and that the pulse IDs are selected: without this get_series labels rows in another way or fails (C128)."
  },
  {
   "property": "C138",
   "status": "proved",
   "theorems": [
    "KD.data_select",
    "KD.data_deselect",
    "KD.data_select_trains",
    "KD.copy_select",
    "KD.copy_deselect",
    "KD.copy_select_trains",
    "KD.copy_select_trains_wrong",
    "KD.copy_select_star_wrong"
   ],
   "note": "The two conditions are needed: copy_select_trains_wrong (a source without a file for the selected trains vanishes from the original, not from its copy) and copy_select_star_wrong (the key pattern * brings back keys in the original, which its copy does not have)."
  },
  {
   "property": "C139",
   "status": "proved",
   "theorems": [
    "KD.data_detector",
    "KD.data_detector_array",
    "KD.data_detector_succeeds",
    "KD.data_detector_data",
    "KD.data_detector_iterate",
    "KD.data_detector_keys",
    "KD.exSplit_sameData",
    "KD.data_detector_zero_wrong"
   ],
   "note": "For well-formed files (as C55, C57, C137). With min_modules=0, which the property leaves out, the trains can differ (data_detector_zero_wrong): a train for which a module has a file without frames counts as having the module in the table. Iterating also needs each module to have files in the trains of the detector (see C138)."
  },
  {
   "property": "C140",
   "status": "proved",
   "theorems": [
    "KD.data_cxi",
    "KD.cxi_alike"
   ],
   "note": "For files fit for a virtual CXI file (CxiReady, as in C133) in both collections."
  },
  {
   "property": "C141",
   "status": "proved",
   "theorems": [
    "KD.Geo.images_each",
    "KD.Geo.images_each_out",
    "KD.Geo.images_shape",
    "KD.Geo.images_refused",
    "KD.Geo.output_array"
   ],
   "note": "The elements over the leading dimensions go along with the ones of the last two dimensions (naturality of every numpy operation used); example: the stacked data of C142"
  },
  {
   "property": "C142",
   "status": "proved",
   "theorems": [
    "KD.Geo.stacked_images"
   ],
   "note": "Composes C49 with C75 and C141; example: the usual LPD geometry, one train with one module with data and one without"
  },
  {
   "property": "C143",
   "status": "proved",
   "theorems": [
    "KD.Geo.reuse_output",
    "KD.Geo.output_as_new"
   ],
   "note": "Induction over the images assembled before; a cell is either covered, then the last tile over it decides, or keeps its value. Example: two images into an output array of the usual LPD geometry"
  },
  {
   "property": "C144",
   "status": "partial",
   "theorems": [
    "KD.union_exact",
    "KD.union_exact_gaps",
    "KD.union_no_more_partial",
    "KD.union_no_more_uses_partial",
    "KD.opened_hides_nothing",
    "KD.union_no_more_wrong"
   ],
   "note": "False in general (union_no_more_wrong): union joins whole files with all sources and trains selected in any part. The partial theorems are for collections as opened, and for the two uses named in the documentation."
  },
  {
   "property": "C145",
   "status": "partial",
   "theorems": [
    "KD.run_stack",
    "KD.iter_stack_partial",
    "KD.Geo.run_images",
    "KD.Geo.iter_images_partial",
    "KD.single_frame_wrong"
   ],
   "note": "Proved for train_from_id. For trains() it is false if a train has a single frame of some module and none of another: the empty array has one dimension more and stack_detector_data refuses the data (single_frame_wrong); the theorems for trains() leave this out."
  },
  {
   "property": "C146",
   "status": "proved",
   "theorems": [
    "KD.loop_prefix",
    "KD.loop_items",
    "KD.loop_complete",
    "KD.loop_selection",
    "KD.det_loop_prefix",
    "KD.det_loop_items",
    "KD.det_loop_complete"
   ],
   "note": "The generator is modelled as the items it yields and the exception it ends with. For detectors, exceptions of the pulses argument come before the first item."
  },
  {
   "property": "C147",
   "status": "partial",
   "theorems": [
    "KD.get_array_any_index",
    "KD.get_array_gaps_partial",
    "KD.get_array_right_iff",
    "KD.get_array_any_works",
    "KD.dask_array_any_index",
    "KD.get_array_gap_wrong"
   ],
   "note": "False if a stretch of selected trains begins with a train without entries whose position in the index is not where the next entries are: then entries of other trains are given for the trains after it (get_array_gap_wrong). get_array_right_iff says exactly when the array is right, for entries which differ."
  },
  {
   "property": "C148",
   "status": "partial",
   "theorems": [
    "KD.write_any_index",
    "KD.copy_gaps_partial",
    "KD.copy_gap_wrong"
   ],
   "note": "The copy has what get_array shows for each train (if the labels are in order), with a contiguous index; this is right if get_array is right for all trains written. False if a stretch of selected trains begins with a train without data whose position is not that of the next: the wrong entries are then written to the copy (copy_gap_wrong)."
  },
  {
   "property": "C149",
   "status": "proved",
   "theorems": [
    "KD.copy_cxi",
    "KD.copy_ready"
   ],
   "note": "copy_ready: what is asked of the original (CxiReady, as in C133) holds for copies too, so copy_cxi asks for it of the original only. The image keys the original files have must be selected (hF)."
  },
  {
   "property": "C150",
   "status": "proved",
   "theorems": [
    "KD.copy_dask",
    "KD.data_dask",
    "KD.narrowed_dask",
    "KD.dask_layout_wrong"
   ],
   "note": "dask_layout_wrong has the same data in one file, where the lazy array works, and in two, where it does not. Collections fit for copies as in C118 (Copyable). The condition on indexes is that the entries of selected trains next to each other follow each other."
  },
  {
   "property": "C151",
   "status": "partial",
   "theorems": [
    "KD.cxi_data_link",
    "KD.cxi_paths",
    "KD.cxi_axes_partial",
    "KD.cxi_modules_axis_partial",
    "KD.cxi_modules_axis_wrong",
    "KD.cxi_cell_axis_wrong"
   ],
   "note": "False of the code for modules: the dimension always has 16 entries, and module_identifier has the modules with data only, so labels are wrong unless all 16 are there (cxi_modules_axis_wrong). Cell IDs name module_identifier as an axis, and there is none in their group (cxi_cell_axis_wrong). Links are followed as HDF5 does it (at most 16)."
  },
  {
   "property": "C152",
   "status": "proved",
   "theorems": [
    "KD.cache_text",
    "KD.load_saved_text",
    "KD.load_cut_short",
    "KD.run_directory_cut_short",
    "KD.json_roundtrip",
    "KD.json_cut_short"
   ],
   "note": "The writing and reading of JSON is that of the package json of Python (json.dump with indent=2, json.load), modelled character by character. Python writes a float so that reading it gives the same float: this is a hypothesis, with floats as opaque values. Names are sequences of Unicode characters; lone surrogates (names which are not UTF-8) are covered by json_roundtrip only, as long as none stand as a pair."
  },
  {
   "property": "C153",
   "status": "partial",
   "theorems": [
    "KD.get_array_list_exact_partial",
    "KD.get_array_list_elements",
    "KD.get_array_list_succeeds",
    "KD.get_array_list_refuses",
    "KD.get_array_list_apart_wrong",
    "KD.get_array_list_apart_example"
   ],
   "note": "Holds if all integers of the region stand next to the list. If a slice or an ellipsis is between, numpy puts the dimension of the list before that of the trains, so the result has no elements, or an exception is raised: it is never what was asked for. Indices in the list are not negative; one list."
  },
  {
   "property": "C154",
   "status": "proved",
   "theorems": [
    "KD.Geo.crystfel_text",
    "KD.Geo.crystfel_text_tile",
    "KD.Geo.crystfel_text_injective",
    "KD.Geo.crystfel_semicolon_wrong"
   ],
   "note": "How Python writes a float is a parameter: it is asked that different numbers have different texts and that these have no semicolon, blank, equals sign or x, y, z."
  },
  {
   "property": "C155",
   "status": "proved",
   "theorems": [
    "KD.Mp.message_bytes",
    "KD.Mp.message_bytes_succeeds",
    "KD.Mp.message_bytes_refuses",
    "KD.Mp.packb_unpackb"
   ],
   "note": "Dicts have strings as keys in the model."
  },
  {
   "property": "C156",
   "status": "proved",
   "theorems": [
    "KD.info_lines",
    "KD.info_text_injective",
    "KD.duration_says",
    "KD.durationSays_unique",
    "KD.info_screen"
   ],
   "note": "The quotient span/10 is exact in the model."
  },
  {
   "property": "C157",
   "status": "partial",
   "theorems": [
    "KD.Mp.message_bytes_v1_partial",
    "KD.Mp.message_bytes_v1_iff",
    "KD.Mp.message_bytes_v1_metadata_wrong"
   ],
   "note": "False of the code for metadata passed to feed separately: they are not in messages of version 1.0. No structured arrays in the model."
  },
  {
   "property": "C158",
   "status": "proved",
   "theorems": [
    "KD.ls_run_line",
    "KD.ls_run_line_injective"
   ],
   "note": ""
  },
  {
   "property": "C159",
   "status": "proved",
   "theorems": [
    "KD.get_array_mask",
    "KD.get_array_mask_length",
    "KD.get_array_mask_succeeds",
    "KD.get_array_mask_as_list"
   ],
   "note": "For a mask with one dimension. What h5py does when the mask selects nothing is a parameter."
  }
 ]
}