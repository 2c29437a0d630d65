{
 "claims": [
  {
   "property": "C01",
   "status": "proved",
   "theorems": [
    "Equistore.C01_labels_hold_entries",
    "Equistore.C01_labels_without_names"
   ],
   "note": ""
  },
  {
   "property": "C02",
   "status": "proved",
   "theorems": [
    "Equistore.C02_position_inverse_of_index"
   ],
   "note": ""
  },
  {
   "property": "C03",
   "status": "proved",
   "theorems": [
    "Equistore.C03_valid_names",
    "Equistore.C03_builder_accepts_iff"
   ],
   "note": ""
  },
  {
   "property": "C04",
   "status": "proved",
   "theorems": [
    "Equistore.C04_export_import",
    "Equistore.C04_import",
    "Equistore.C04_import_null",
    "Equistore.C04_position",
    "Equistore.C04_position_foreign",
    "Equistore.C04_no_names"
   ],
   "note": "Labels without entries have NULL as pointer to the values; reading them back is treated as allowed here, see C103."
  },
  {
   "property": "C05",
   "status": "proved",
   "theorems": [
    "Equistore.C05_block_created_iff",
    "Equistore.C05_block_content",
    "Equistore.C05_block_failure",
    "Equistore.C05_block_shape_callback"
   ],
   "note": ""
  },
  {
   "property": "C06",
   "status": "proved",
   "theorems": [
    "Equistore.C06_add_gradient_iff",
    "Equistore.C06_add_gradient_effect",
    "Equistore.C06_add_gradient_failure",
    "Equistore.C06_nul_in_parameter_corrupts_block"
   ],
   "note": ""
  },
  {
   "property": "C07",
   "status": "proved",
   "theorems": [
    "Equistore.C07_block_history"
   ],
   "note": ""
  },
  {
   "property": "C08",
   "status": "partial",
   "theorems": [
    "Equistore.C08_gradient_samples_not_checked",
    "Equistore.C08_gradient_samples_partial"
   ],
   "note": "The full statement is false of the code: add_gradient does not check that the first sample variable of a gradient is a valid index of a sample (C08_gradient_samples_not_checked). The partial theorem shows that the range is preserved if callers respect it."
  },
  {
   "property": "C09",
   "status": "proved",
   "theorems": [
    "Equistore.C09_components_to_properties_labels",
    "Equistore.C09_components_to_properties_nothing",
    "Equistore.C09_backends_lawful"
   ],
   "note": ""
  },
  {
   "property": "C10",
   "status": "partial",
   "theorems": [
    "Equistore.C10_components_to_properties_rearranged",
    "Equistore.C10_combinations",
    "Equistore.C10_components_to_properties_values_partial",
    "Equistore.C10_positions",
    "Equistore.C10_axes_counterexample",
    "Equistore.C10_positions_exact",
    "Equistore.C10_exact"
   ],
   "note": "The full statement is false of the code: with two or more components after the moved one, their values are permuted (C10_axes_counterexample). C10_components_to_properties_rearranged says, without conditions on the position, where every value goes. C10_exact says exactly when no value changes place: the order of the components after the moved one is irrelevant (at most one of them, an empty one, or the last or all others with a single entry). The partial theorem covers the cases where the permutation is the identity, and C10_positions_exact characterises them."
  },
  {
   "property": "C11",
   "status": "partial",
   "theorems": [
    "Equistore.C11_outcomes",
    "Equistore.C11_no_blocks",
    "Equistore.C11_error_atomic_partial",
    "Equistore.C11_panic_corrupts",
    "Equistore.C11_clash_counterexample"
   ],
   "note": "The full statement is false of the code: a panic (property with the name of the component) leaves the block changed (C11_clash_counterexample, C11_panic_corrupts). Errors leave everything unchanged (partial theorem)."
  },
  {
   "property": "C12",
   "status": "proved",
   "theorems": [
    "Equistore.C12_tensor_created_iff",
    "Equistore.C12_tensor_content",
    "Equistore.C12_tensor_failure",
    "Equistore.C12_tensor_any_order"
   ],
   "note": ""
  },
  {
   "property": "C13",
   "status": "proved",
   "theorems": [
    "Equistore.C13_blocks_matching_iff",
    "Equistore.C13_blocks_matching_result",
    "Equistore.C13_blocks_matching_failure",
    "Equistore.C13_empty_selection"
   ],
   "note": ""
  },
  {
   "property": "C14",
   "status": "proved",
   "theorems": [
    "Equistore.C14_block_matching_iff",
    "Equistore.C14_block_matching_error",
    "Equistore.C14_full_key"
   ],
   "note": ""
  },
  {
   "property": "C15",
   "status": "proved",
   "theorems": [
    "Equistore.C15_labels_par_iter",
    "Equistore.C15_iter",
    "Equistore.C15_par_iter",
    "Equistore.C15_par_iter_mut",
    "Equistore.C15_labels_iter_steps"
   ],
   "note": ""
  },
  {
   "property": "C16",
   "status": "proved",
   "theorems": [
    "Equistore.C16_keys_to_properties_keys",
    "Equistore.C16_keys_to_properties_missing",
    "Equistore.C16_keys_to_samples_keys",
    "Equistore.C16_keys_to_samples_missing"
   ],
   "note": ""
  },
  {
   "property": "C17",
   "status": "partial",
   "theorems": [
    "Equistore.C17_keys_to_samples_values",
    "Equistore.C17_keys_to_samples_labels_partial",
    "Equistore.C17_order_counterexample"
   ],
   "note": "The full statement is false of the code: names are moved in the order of the request but values in the order of the keys (C17_order_counterexample). The partial theorem covers requests in the order of the keys; C17_keys_to_samples_values says what happens for any order."
  },
  {
   "property": "C18",
   "status": "proved",
   "theorems": [
    "Equistore.C18_sample_count"
   ],
   "note": ""
  },
  {
   "property": "C19",
   "status": "proved",
   "theorems": [
    "Equistore.C19_keys_to_properties_samples",
    "Equistore.C19_keys_to_samples_samples"
   ],
   "note": ""
  },
  {
   "property": "C20",
   "status": "partial",
   "theorems": [
    "Equistore.C20_broadcast",
    "Equistore.C20_exact",
    "Equistore.C20_keys_to_samples_gradient_samples",
    "Equistore.C20_keys_to_samples_gradients_partial",
    "Equistore.C20_release_counterexample",
    "Equistore.C20_keys_to_samples_positions_partial"
   ],
   "note": "The full statement is false of the code in release builds: components of gradients are only compared by debug_assert (C20_release_counterexample). C20_broadcast says what is in the gradients in all cases: values are at the same positions in the components of the first merged block, repeated along components with a single entry. C20_keys_to_samples_positions_partial is the case of components of the same sizes. C20_exact says that, for gradients without repeated values, labels are kept if and only if the component entries are the same."
  },
  {
   "property": "C21",
   "status": "proved",
   "theorems": [
    "Equistore.C21_keys_to_properties_atomic",
    "Equistore.C21_keys_to_samples_atomic"
   ],
   "note": ""
  },
  {
   "property": "C22",
   "status": "proved",
   "theorems": [
    "Equistore.C22_keys_to_properties_compatible",
    "Equistore.C22_keys_to_samples_compatible"
   ],
   "note": ""
  },
  {
   "property": "C23",
   "status": "partial",
   "theorems": [
    "Equistore.C23_keys_to_properties_values",
    "Equistore.C23_keys_to_properties_labels_partial",
    "Equistore.C23_order_counterexample"
   ],
   "note": "As C17 (C23_order_counterexample); C23_keys_to_properties_values says what happens for any order."
  },
  {
   "property": "C24",
   "status": "proved",
   "theorems": [
    "Equistore.C24_keys_to_properties_values",
    "Equistore.C24_keys_to_properties_zeros"
   ],
   "note": ""
  },
  {
   "property": "C25",
   "status": "proved",
   "theorems": [
    "Equistore.C25_property_labels"
   ],
   "note": ""
  },
  {
   "property": "C26",
   "status": "partial",
   "theorems": [
    "Equistore.C26_listed_without_block",
    "Equistore.C26_not_listed",
    "Equistore.C26_listed",
    "Equistore.C26_listed_labels_partial",
    "Equistore.C26_order_counterexample"
   ],
   "note": "As C17 (C26_order_counterexample); C26_listed says what happens for any order."
  },
  {
   "property": "C27",
   "status": "partial",
   "theorems": [
    "Equistore.C27_broadcast",
    "Equistore.C27_exact",
    "Equistore.C27_keys_to_properties_gradient_samples",
    "Equistore.C27_keys_to_properties_gradients_partial",
    "Equistore.C27_release_counterexample",
    "Equistore.C27_keys_to_properties_positions_partial"
   ],
   "note": "The full statement is false of the code in release builds: components of gradients are only compared by debug_assert (C27_release_counterexample). C27_broadcast says what is in the gradients in all cases: values are at the same positions in the components of the first merged block, repeated along components with a single entry. C27_keys_to_properties_positions_partial is the case of components of the same sizes. C27_exact says that, for gradients without repeated values, labels are kept if and only if the component entries are the same."
  },
  {
   "property": "C28",
   "status": "proved",
   "theorems": [
    "Equistore.C28_reachable_valid",
    "Equistore.C28_reachable_valid_any_array",
    "Equistore.C28_reachable_keys"
   ],
   "note": ""
  },
  {
   "property": "C29",
   "status": "proved",
   "theorems": [
    "Equistore.C29_any_order",
    "Equistore.C29_sequence_any_order",
    "Equistore.C29_new_any_order"
   ],
   "note": ""
  },
  {
   "property": "C30",
   "status": "proved",
   "theorems": [
    "Equistore.Origins.C30_origins_stable_injective",
    "Equistore.Origins.C30_unknown_origin",
    "Equistore.Origins.C30_returned_ids"
   ],
   "note": ""
  },
  {
   "property": "C31",
   "status": "partial",
   "theorems": [
    "Equistore.Origins.C31_reserved_name_gets_zero",
    "Equistore.Origins.C31_registered_not_zero_partial"
   ],
   "note": "The full statement is false of the code: the reserved name can be registered and gives 0 (C31_reserved_name_gets_zero)."
  },
  {
   "property": "C32",
   "status": "proved",
   "theorems": [
    "Equistore.C32_header_bytes",
    "Equistore.C32_header_roundtrip",
    "Equistore.C32_header_failure"
   ],
   "note": ""
  },
  {
   "property": "C33",
   "status": "proved",
   "theorems": [
    "Equistore.C33_labels_roundtrip",
    "Equistore.C33_labels_write_failure"
   ],
   "note": ""
  },
  {
   "property": "C34",
   "status": "proved",
   "theorems": [
    "Equistore.C34_data_roundtrip",
    "Equistore.C34_data_write_failure"
   ],
   "note": ""
  },
  {
   "property": "C35",
   "status": "proved",
   "theorems": [
    "Equistore.C35_save_load",
    "Equistore.C35_save_load_same",
    "Equistore.C35_save_failure"
   ],
   "note": ""
  },
  {
   "property": "C36",
   "status": "proved",
   "theorems": [
    "Equistore.C36_names_injective",
    "Equistore.C36_entries",
    "Equistore.C36_gradient_names"
   ],
   "note": ""
  },
  {
   "property": "C37",
   "status": "proved",
   "theorems": [
    "Equistore.C37_labels_all_or_nothing",
    "Equistore.C37_data_all_or_nothing"
   ],
   "note": ""
  },
  {
   "property": "C38",
   "status": "proved",
   "theorems": [
    "Equistore.C38_load_valid",
    "Equistore.C38_labels_valid"
   ],
   "note": ""
  },
  {
   "property": "C39",
   "status": "proved",
   "theorems": [
    "Equistore.C39_byte_order",
    "Equistore.C39_labels_same",
    "Equistore.C39_data_same",
    "Equistore.C39_mixed_rejected",
    "Equistore.C39_fortran_rejected"
   ],
   "note": ""
  },
  {
   "property": "C40",
   "status": "partial",
   "theorems": [
    "Equistore.C40_counterexample",
    "Equistore.C40_load_no_panic_partial",
    "Equistore.C40_header_no_panic",
    "Equistore.C40_labels_panic_exact",
    "Equistore.C40_data_panic_exact",
    "Equistore.C40_keys_panic"
   ],
   "note": "The full statement is false of the code: some files make load panic (C40_counterexample). C40_labels_panic_exact and C40_data_panic_exact say exactly which contents of one file make reading it panic, in debug and release builds. C40_load_no_panic_partial: if no file is one of these, data have two dimensions (debug builds only), and file names are not one of the two bad kinds, load does not panic. C40_keys_panic is the converse for the keys, and C111_one_entry_partial for one file of a saved tensor map."
  },
  {
   "property": "C41",
   "status": "proved",
   "theorems": [
    "Equistore.C41_status",
    "Equistore.C41_last_error"
   ],
   "note": ""
  },
  {
   "property": "C42",
   "status": "partial",
   "theorems": [
    "Equistore.C42_call_returns_partial",
    "Equistore.C42_counterexample"
   ],
   "note": "The full statement is false of the code: messages with a NUL character panic while the error is stored (C42_counterexample)."
  },
  {
   "property": "C43",
   "status": "proved",
   "theorems": [
    "Equistore.C43_blocks_matching_buffer",
    "Equistore.C43_one_entry_per_block"
   ],
   "note": ""
  },
  {
   "property": "C44",
   "status": "partial",
   "theorems": [
    "Equistore.C44_data_origin_buffer_partial",
    "Equistore.C44_empty_buffer_debug",
    "Equistore.C44_counterexample"
   ],
   "note": "The full statement is false of the code: an empty buffer wraps around in release builds (C44_counterexample)."
  },
  {
   "property": "C45",
   "status": "partial",
   "theorems": [
    "Equistore.C45_short_names_partial",
    "Equistore.C45_longer_names_raise",
    "Equistore.C45_counterexample",
    "Equistore.C45_growing_buffer"
   ],
   "note": "The full statement is false of the code: names of more than 1023 bytes raise an error in Python (C45_counterexample, C45_longer_names_raise)."
  },
  {
   "property": "C46",
   "status": "proved",
   "theorems": [
    "Equistore.C46_block_labels",
    "Equistore.C46_missing_gradient",
    "Equistore.C46_gradients_list"
   ],
   "note": ""
  },
  {
   "property": "C47",
   "status": "proved",
   "theorems": [
    "Equistore.C47_defined",
    "Equistore.C47_at_most_once",
    "Equistore.C47_not_in_use",
    "Equistore.C47_not_shared",
    "Equistore.C47_not_lost",
    "Equistore.C47_all_released"
   ],
   "note": ""
  },
  {
   "property": "C48",
   "status": "proved",
   "theorems": [
    "Equistore.C48_rejected",
    "Equistore.C48_taken"
   ],
   "note": ""
  },
  {
   "property": "C49",
   "status": "proved",
   "theorems": [
    "Equistore.C49_copy",
    "Equistore.C49_equal",
    "Equistore.C49_outcome",
    "Equistore.C49_independent"
   ],
   "note": ""
  },
  {
   "property": "C50",
   "status": "partial",
   "theorems": [
    "Equistore.C50_operations_partial",
    "Equistore.C50_sequence_partial",
    "Equistore.C50_new_block",
    "Equistore.C50_add_gradient",
    "Equistore.C50_error_atomic",
    "Equistore.C50_provided_arrays",
    "Equistore.C50_release_counterexample",
    "Equistore.C50_provided_sizes_partial",
    "Equistore.C50_numpy_success",
    "Equistore.C50_rust_success",
    "Equistore.C50_empty_gradient_counterexample"
   ],
   "note": "The full statement is false of the code in release builds (C50_release_counterexample: gradients with components of different sizes are given to move_samples_from). Debug builds are covered, and release builds if the gradients of blocks to merge have components of the same sizes, whatever their labels. For arrays from Rust and numpy arrays, release builds are covered for components of all sizes: what succeeds with numpy succeeds with Rust and gives the same contents (C50_numpy_success), and the other way round if all gradients have samples (C50_rust_success). Without this condition they differ (C50_empty_gradient_counterexample)."
  },
  {
   "property": "C51",
   "status": "partial",
   "theorems": [
    "Equistore.C51_read",
    "Equistore.C51_merge",
    "Equistore.C51_operation_partial",
    "Equistore.C51_sequence_partial",
    "Equistore.C51_single_property",
    "Equistore.C51_counterexample",
    "Equistore.C51_not_saved"
   ],
   "note": "The full statement is false of the code (C51_counterexample): components_to_properties can give arrays whose memory is not in row-major order. The partial theorems cover all the other cases."
  },
  {
   "property": "C52",
   "status": "partial",
   "theorems": [
    "Equistore.C52_interrupted_partial",
    "Equistore.C52_counterexample"
   ],
   "note": "The full statement is false of the code: with a single block, a disk error when opening the entry of a gradient leaves a valid ZIP file without this gradient (zip finalizes the archive when the writer is dropped). C52_counterexample. The partial theorem covers all failure points for disks which do not recover (in particular crashes), and all disks if there is not exactly one block or no gradient."
  },
  {
   "property": "C53",
   "status": "partial",
   "theorems": [
    "Equistore.C53_saved_partial",
    "Equistore.C53_saved_or_rejected",
    "Equistore.C53_counterexample"
   ],
   "note": "The full statement is false of the code: errors when the BufWriter is flushed at the end are ignored. C53_counterexample. The partial theorem covers disks which do not fail; C53_saved_or_rejected covers all disks."
  },
  {
   "property": "C54",
   "status": "partial",
   "theorems": [
    "Equistore.C54_rejected_partial",
    "Equistore.C54_other_files",
    "Equistore.C54_overwritten",
    "Equistore.C54_counterexample"
   ],
   "note": "The full statement is false of the code: File::create truncates the file before anything can fail. C54_counterexample. The partial theorem covers the failures before the file is created; C54_other_files is about all the other files, for all outcomes."
  },
  {
   "property": "C55",
   "status": "partial",
   "theorems": [
    "Equistore.C55_safe_partial",
    "Equistore.C55_arrays_alive_partial",
    "Equistore.C55_rules_needed",
    "Equistore.C55_counterexample"
   ],
   "note": "The full statement is false of the code: C55_counterexample. Programs which follow four rules are safe (C55_safe_partial), and for each of the rules there is a program with undefined behaviour which follows all the others (C55_rules_needed)."
  },
  {
   "property": "C56",
   "status": "partial",
   "theorems": [
    "Equistore.C56_not_lost_partial",
    "Equistore.C56_all_released_partial",
    "Equistore.C56_at_most_once",
    "Equistore.C56_counterexample"
   ],
   "note": "The full statement is false of the code: TensorMap() sets the pointers of the blocks to NULL before the call which may refuse them. C56_counterexample. The partial theorems are about programs which give valid keys and distinct blocks; C56_at_most_once is for all safe programs."
  },
  {
   "property": "C57",
   "status": "partial",
   "theorems": [
    "Equistore.C57_gc_partial",
    "Equistore.C57_disabled",
    "Equistore.C57_copy_succeeds",
    "Equistore.C57_counterexample"
   ],
   "note": "The full statement is false of the code: __deepcopy__ does not enable the garbage collector again when the copy raises. C57_counterexample. The partial theorem covers everything else; C57_copy_succeeds says when copies do not raise."
  },
  {
   "property": "C58",
   "status": "proved",
   "theorems": [
    "Equistore.C58_given"
   ],
   "note": "For all programs, without rules."
  },
  {
   "property": "C59",
   "status": "partial",
   "theorems": [
    "Equistore.C59_counterexample",
    "Equistore.C59_new_partial",
    "Equistore.C59_distinct",
    "Equistore.C59_accepts"
   ],
   "note": "The full statement is false of the code: values are converted to 32 bits silently, and numpy replaces empty names. C59_counterexample. The partial theorem covers all the values which fit."
  },
  {
   "property": "C60",
   "status": "partial",
   "theorems": [
    "Equistore.C60_contiguous_partial",
    "Equistore.C60_counterexample",
    "Equistore.C60_counterexample_memory",
    "Equistore.C60_counterexample_names",
    "Equistore.C60_library_sees_partial",
    "Equistore.C60_positions"
   ],
   "note": "The full statement is false of the code: strides and offsets are ignored when views are given to the library (C60_counterexample), which can read outside of the memory of the array (C60_counterexample_memory), and names end at a NUL (C60_counterexample_names). The partial theorems cover slices without a step and lists of positions, and all labels which are contiguous in memory."
  },
  {
   "property": "C61",
   "status": "partial",
   "theorems": [
    "Equistore.C61_read_back_partial",
    "Equistore.C61_no_entries",
    "Equistore.C61_wraps",
    "Equistore.C61_counterexample",
    "Equistore.C61_round_trip_partial",
    "Equistore.C61_namedtuples",
    "Equistore.C61_position_right",
    "Equistore.C61_position_refused"
   ],
   "note": "The full statement is false of the code: labels without entries can not be read or searched (C61_no_entries), and integers to search for are used modulo 2^32 (C61_wraps). C61_counterexample. The partial theorems cover the rest. C61_position_right: for all labels a program can have, also those made by indexing, position and `in` never give a wrong answer for values which fit in 32 bits; C61_position_refused: they raise an exception for labels made in Python or by indexing."
  },
  {
   "property": "C62",
   "status": "partial",
   "theorems": [
    "Equistore.C62_keywords_partial",
    "Equistore.C62_entry_partial",
    "Equistore.C62_labels_partial",
    "Equistore.C62_int_partial",
    "Equistore.C62_no_parameters",
    "Equistore.C62_key_partial",
    "Equistore.C62_own_names",
    "Equistore.C62_namedtuple",
    "Equistore.C62_counterexample",
    "Equistore.C62_counterexample_position",
    "Equistore.C62_too_large",
    "Equistore.C62_counterexample_keywords",
    "Equistore.C62_counterexample_key"
   ],
   "note": "The full statement is false of the code: keyword parameters are ignored if there is a positional one (C62_counterexample), and positions are used modulo 2^64 (C62_counterexample_position). The partial theorems cover one kind of parameter at a time. C62_too_large: keyword integers which do not fit in 32 bits are refused when numpy checks them; numpy versions which wrap them give another block (C62_counterexample_keywords). Names of keys which are also names of parameters (self, __return_selection) raise a TypeError (C62_own_names, C62_counterexample_key), and named tuples which do not come from as_namedtuples are not accepted (C62_namedtuple)."
  },
  {
   "property": "C63",
   "status": "proved",
   "theorems": [
    "Equistore.C63_iteration"
   ],
   "note": "For tensor maps with at most 2^64 blocks."
  },
  {
   "property": "C64",
   "status": "partial",
   "theorems": [
    "Equistore.C64_roundtrip_partial",
    "Equistore.C64_saved",
    "Equistore.C64_too_long",
    "Equistore.C64_counterexample_byte_order",
    "Equistore.C64_counterexample_long"
   ],
   "note": "The full statement is false of the code: labels are misread on a machine with another byte order (C64_counterexample_byte_order), and headers longer than 10000 bytes are refused by np.load (C64_counterexample_long, C64_too_long). The partial theorem is for the same byte order and headers which are short enough; C64_saved shows that saving works."
  },
  {
   "property": "C65",
   "status": "partial",
   "theorems": [
    "Equistore.C65_from_numpy_partial",
    "Equistore.C65_refused",
    "Equistore.C65_never_wrong",
    "Equistore.C65_to_numpy_partial",
    "Equistore.C65_counterexample_fortran",
    "Equistore.C65_counterexample_byte_order"
   ],
   "note": "The full statements are false of the code: arrays in Fortran order or with another type than 64-bit floating point numbers are saved with numpy and refused by the library (C65_counterexample_fortran, C65_refused), and labels from a machine with another byte order are misread with numpy (C65_counterexample_byte_order). The partial theorems cover the remaining cases in both directions. C65_never_wrong: what is loaded by the library is always what was saved."
  },
  {
   "property": "C66",
   "status": "partial",
   "theorems": [
    "Equistore.C66_operations_partial",
    "Equistore.C66_success_partial",
    "Equistore.C66_sequence_partial",
    "Equistore.C66_new_block",
    "Equistore.C66_add_gradient",
    "Equistore.C66_unchanged",
    "Equistore.C66_status",
    "Equistore.C66_status_counterexample",
    "Equistore.C66_corrupted_counterexample"
   ],
   "note": "Full statement false of the code: keys_to_samples/keys_to_properties replace the callback's status by a panic (status 255) when a callback of the new array fails during the checks of the new block (C66_status_counterexample), and components_to_properties leaves a corrupted tensor map when a callback fails (C66_corrupted_counterexample). Proved: failures are always reported, success is real, keys_to_* leave their tensor map unchanged; release builds restricted as in C50. Simplification: the outcome of a callback is a function of the array and the arguments."
  },
  {
   "property": "C67",
   "status": "partial",
   "theorems": [
    "Equistore.C67_cause_partial",
    "Equistore.C67_single_thread_partial",
    "Equistore.C67_failures_partial",
    "Equistore.C67_causes_exist",
    "Equistore.C67_threads_counterexample",
    "Equistore.C67_panic_counterexample",
    "Equistore.C67_interrupt_counterexample"
   ],
   "note": "Full statement false of the code: LAST_EXCEPTION is shared by all threads (C67_threads_counterexample), it is not cleared for positive statuses and then given as cause of an unrelated error (C67_panic_counterexample), KeyboardInterrupt in a callback is not caught (C67_interrupt_counterexample). Proved: right status and cause when one thread at a time is in the library, right success/failure for all interleavings, causes are never invented nor repeated. The library is modelled by the callbacks it calls and what it does with a failing one (`?` or `expect`)."
  },
  {
   "property": "C68",
   "status": "partial",
   "theorems": [
    "Equistore.C68_labels_partial",
    "Equistore.C68_samples",
    "Equistore.C68_keys",
    "Equistore.C68_blocks",
    "Equistore.C68_counterexample"
   ],
   "note": "The full statement is false of the code (C68_counterexample): eqs_tensormap_components_to_properties is not documented to invalidate labels, but drops the labels of components and properties. C68_labels_partial is the statement for all axes without this function on the containing tensor map; C68_samples, C68_keys and C68_blocks are complete for samples, keys and pointers to blocks. Labels are identified with their content (Arc)."
  },
  {
   "property": "C69",
   "status": "partial",
   "theorems": [
    "Equistore.C69_views_partial",
    "Equistore.C69_safe",
    "Equistore.C69_dangling",
    "Equistore.C69_counterexample"
   ],
   "note": "The full statement is false of the code: C69_counterexample, and C69_dangling has a program with dangling labels for each of the conditions in PySource.expires, so none of them can be left out of C69_views_partial. C69_safe: taking labels, also after they have expired, causes no undefined behaviour in the library. Reading labels is not a statement of the model; their content is identified with their memory."
  },
  {
   "property": "C70",
   "status": "proved",
   "theorems": [
    "Equistore.C70_array",
    "Equistore.C70_content",
    "Equistore.C70_values",
    "Equistore.C70_gradient"
   ],
   "note": "C70_array: the array exists and is returned again; C70_content: its content is changed by nothing but writing into it and moving components; C70_values, C70_gradient: it is the array given to eqs_block or eqs_block_add_gradient."
  },
  {
   "property": "C71",
   "status": "proved",
   "theorems": [
    "Equistore.C71_operations",
    "Equistore.C71_sequence",
    "Equistore.C71_blocks",
    "Equistore.C71_documented",
    "Equistore.C71_save",
    "Equistore.C71_new_arrays",
    "Equistore.C71_same_arrays"
   ],
   "note": "C71_operations, C71_sequence: operations on tensor maps; C71_documented: the contract of move_samples_from; C71_blocks: new blocks and gradients; C71_save: files; C71_new_arrays and C71_same_arrays: which arrays are in the tensor map afterwards."
  },
  {
   "property": "C72",
   "status": "partial",
   "theorems": [
    "Equistore.C72_operations",
    "Equistore.C72_sequence",
    "Equistore.C72_blocks",
    "Equistore.C72_read",
    "Equistore.C72_save",
    "Equistore.C72_merge",
    "Equistore.C72_readable_partial",
    "Equistore.C72_readable_sequence_partial",
    "Equistore.C72_single_property",
    "Equistore.C72_counterexample",
    "Equistore.C72_not_saved"
   ],
   "note": "C72_operations, C72_sequence, C72_blocks: the layout in memory has no effect on operations, new blocks and gradients; C72_read and C72_save: reading and saving give the elements in row-major order or fail; C72_merge: data can be read after merging. C72_readable_partial and C72_readable_sequence_partial: data stays readable, without components_to_properties of a component with one entry, or with one property, in front of other components; false in general (C72_counterexample, C72_single_property, C72_not_saved)."
  },
  {
   "property": "C73",
   "status": "partial",
   "theorems": [
    "Equistore.C73_sequence_partial",
    "Equistore.C73_same_type",
    "Equistore.C73_outcome",
    "Equistore.C73_rounding",
    "Equistore.C73_blocks",
    "Equistore.C73_save",
    "Equistore.C73_lossy",
    "Equistore.C73_counterexample",
    "Equistore.C73_first_block"
   ],
   "note": "C73_same_type: with a single type, all operations give the same numbers as with float64 and keep the type. C73_outcome: for any mix of types, the outcome, labels and shapes are the same and no new types appear. C73_rounding: for any mix, the numbers are the same after rounding to the narrowest type. C73_blocks: new blocks, gradients and components_to_properties never change numbers. C73_save: only float64 is saved. C73_sequence_partial: the numbers stay the same for a mix of types if all of them are numbers of all types in use; false in general (C73_counterexample, C73_lossy, C73_first_block): keys_to_samples and keys_to_properties silently convert numbers to the type of the first block."
  },
  {
   "property": "C74",
   "status": "proved",
   "theorems": [
    "Equistore.C74_keys_to_samples",
    "Equistore.C74_keys_to_properties",
    "Equistore.C74_small_fits",
    "Equistore.C74_provided_arrays",
    "Equistore.C74_keys_to_samples_sizes",
    "Equistore.C74_keys_to_properties_sizes"
   ],
   "note": "Equivalences: C74_keys_to_samples, C74_keys_to_properties, for all arrays which implement the callbacks, assuming gradient components of the same sizes in release builds, where they are not checked. C74_keys_to_samples_sizes, C74_keys_to_properties_sizes do not assume this, for arrays which repeat values along axes of size 1 and refuse other sizes: arrays from Rust and numpy arrays do (C74_provided_arrays), and differ for gradients without samples. C74_small_fits: the hypothesis SamplesFit holds for all tensor maps with less than 2^31 samples."
  },
  {
   "property": "C75",
   "status": "partial",
   "theorems": [
    "Equistore.C75_counterexample",
    "Equistore.C75_two_steps_partial",
    "Equistore.C75_described",
    "Equistore.C75_complete"
   ],
   "note": "The full statement is false of the code: when the names are not in the order of the keys, moving them at once puts values under the wrong names (C17), and moving them one by one does not (C75_counterexample). C75_two_steps_partial covers names given in the order of the keys, split anywhere: same success, same tensor map. C75_described and C75_complete: a description of the result which leaves a single possibility. Without sorting, the order of samples can differ (example in Props/MovedTwice.lean)."
  },
  {
   "property": "C76",
   "status": "partial",
   "theorems": [
    "Equistore.C76_header",
    "Equistore.C76_str_partial",
    "Equistore.C76_determines_partial",
    "Equistore.C76_repr_partial",
    "Equistore.C76_counterexample"
   ],
   "note": "The full statement is false of the code: columns are as wide as names, and there is no space between values which do not fit, so that two tensor maps with different keys print the same text (C76_counterexample). C76_header holds for all tensor maps: printing never fails, shows the names and the number of blocks, and has one line for each key. C76_str_partial, C76_determines_partial and C76_repr_partial cover values which fit (Narrow)."
  },
  {
   "property": "C77",
   "status": "partial",
   "theorems": [
    "Equistore.C77_arrays_partial",
    "Equistore.C77_content",
    "Equistore.C77_write",
    "Equistore.C77_safe",
    "Equistore.C77_dangling",
    "Equistore.C77_counterexample"
   ],
   "note": "The full statement is false of the code: C77_counterexample, and C77_dangling has a program with an array pointing to released memory for each of the conditions in arrayExpires about tensor maps, so none of them can be left out of C77_arrays_partial. For components_to_properties the model keeps the identity of the array and changes its shape; the code also allocates new memory. C77_content, C77_write and C77_safe hold for all arrays which have not expired: nothing but writes changes them, a write changes exactly the arrays with the same memory, and no statement is undefined."
  },
  {
   "property": "C78",
   "status": "partial",
   "theorems": [
    "Equistore.C78_sequence",
    "Equistore.C78_blocks",
    "Equistore.C78_keys_to_samples_tracked",
    "Equistore.C78_keys_to_properties_tracked",
    "Equistore.C78_components_tracked",
    "Equistore.C78_native_save_fails",
    "Equistore.C78_save_partial",
    "Equistore.C78_counterexample"
   ],
   "note": "The full statement is false of the code: _eqs_array_data refuses tensors on the CPU (the test for the device is inverted), and tensors on other devices fail when they are converted to numpy, so that saving with the default options never works for torch tensors (C78_native_save_fails, C78_counterexample). With use_numpy=True it works exactly if no array requires gradients (C78_save_partial). Everything about operations and tracking of gradients is proved without restriction."
  },
  {
   "property": "C79",
   "status": "partial",
   "theorems": [
    "Equistore.C79_counterexample",
    "Equistore.C79_two_steps_partial",
    "Equistore.C79_described",
    "Equistore.C79_complete",
    "Equistore.C79_complete_up_to_order"
   ],
   "note": "The full statement is false of the code: when the names are not in the order of the keys, moving them at once puts values under the wrong names (C23), and moving them one by one does not (C79_counterexample). C79_two_steps_partial covers names given in the order of the keys, split anywhere: same success, same tensor map up to the order of properties. C79_described and C79_complete: a description of the result which leaves a single possibility up to this order. The order can indeed differ (example in Props/MovedProperties.lean)."
  },
  {
   "property": "C80",
   "status": "partial",
   "theorems": [
    "Equistore.C80_loaded_partial",
    "Equistore.C80_announced",
    "Equistore.C80_other_files_partial",
    "Equistore.C80_not_loaded",
    "Equistore.C80_nul_library",
    "Equistore.C80_nul_numpy",
    "Equistore.C80_counterexample",
    "Equistore.C80_counterexample_nul",
    "Equistore.C80_links_partial",
    "Equistore.C80_links_other_partial",
    "Equistore.C80_links_history_partial"
   ],
   "note": "The full statement is false of the code: save adds '.npz' to the path and load does not (C80_counterexample; C80_not_loaded: saving has no influence on what is loaded with such a path), and ctypes cuts paths at the first NUL, so that the library writes another file (C80_counterexample_nul, C80_nul_library; C80_nul_numpy: numpy refuses). C80_loaded_partial covers paths ending with .npz, C80_announced the path given in the warning, C80_other_files_partial all other files, also when save fails. With links and other names of the same file (Model/PyLinks.lean): C80_links_partial, C80_links_other_partial and C80_links_history_partial (after any number of other calls), where paths lead to the same files during the whole program."
  },
  {
   "property": "C81",
   "status": "partial",
   "theorems": [
    "Equistore.C81_keys_first",
    "Equistore.C81_both_orders_partial",
    "Equistore.C81_counterexample"
   ],
   "note": "The full statement is false of the code: blocks without properties (or with an empty component) can be merged after the component was moved, but not before, if their components (or properties) are different (C81_counterexample). C81_keys_first proves one direction without conditions; the partial theorem proves both when there are properties and entries in the component."
  },
  {
   "property": "C82",
   "status": "partial",
   "theorems": [
    "Equistore.C82_counterexample",
    "Equistore.C82_any_order_partial",
    "Equistore.C82_samples_first_described",
    "Equistore.C82_properties_first_described",
    "Equistore.C82_complete"
   ],
   "note": "The full statement is false of the code: moving to the properties first can give different properties to blocks which are then merged along samples, which is an error; the other order succeeds (C82_counterexample). C82_any_order_partial says exactly when: the order with properties first succeeds if and only if the other one does and the values of the names moved to properties are the same ones, in the same order, for all the values of the names moved to samples; both orders then give the same tensor map. C82_*_described and C82_complete: a description of the result of both orders which leaves a single possibility."
  },
  {
   "property": "C83",
   "status": "partial",
   "theorems": [
    "Equistore.C83_names_partial",
    "Equistore.C83_labels_partial",
    "Equistore.C83_other",
    "Equistore.C83_no_names",
    "Equistore.C83_labels_ignored",
    "Equistore.C83_counterexample",
    "Equistore.C83_counterexample_empty"
   ],
   "note": "The full statement is false of the code: a name with NUL is cut, and an empty name becomes f0 (C83_counterexample, C83_counterexample_empty). C83_names_partial, C83_labels_partial: all other names and labels, C83_other and C83_no_names: all other arguments. C83_labels_ignored: components_to_properties accepts labels without entries and does nothing."
  },
  {
   "property": "C84",
   "status": "partial",
   "theorems": [
    "Equistore.C84_shown",
    "Equistore.C84_gradients",
    "Equistore.C84_created_partial",
    "Equistore.C84_add_gradient_partial",
    "Equistore.C84_counterexample",
    "Equistore.C84_counterexample_labels"
   ],
   "note": "The full statement is false of the code: a parameter with NUL is cut (C84_counterexample), and labels with steps are not seen by the library as in Python (C84_counterexample_labels, as in C60). C84_created_partial and C84_add_gradient_partial give the exact conditions for success and the content for all other labels and parameters; C84_shown and C84_gradients hold for all valid blocks."
  },
  {
   "property": "C85",
   "status": "partial",
   "theorems": [
    "Equistore.C85_created_partial",
    "Equistore.C85_counterexample"
   ],
   "note": "Partial: the full statement is false when the library does not see the keys as Python does, e.g. for keys[::2] (C85_counterexample). Proved for labels which the library reads as Python does, with names without NUL."
  },
  {
   "property": "C86",
   "status": "proved",
   "theorems": [
    "Equistore.C86_every_block",
    "Equistore.C86_no_blocks",
    "Equistore.C86_keys_to_samples",
    "Equistore.C86_keys_to_properties",
    "Equistore.C86_components_to_properties"
   ],
   "note": "Proved for all valid tensor maps; the move of components for arrays following the array contract (LawfulArray), which the arrays of the library do."
  },
  {
   "property": "C87",
   "status": "partial",
   "theorems": [
    "Equistore.C87_block",
    "Equistore.C87_gradient",
    "Equistore.C87_block_determines_partial",
    "Equistore.C87_gradient_determines",
    "Equistore.C87_counterexample"
   ],
   "note": "The full statement is false of the code: a gradient with the parameter a', 'b prints as two gradients a and b (C87_counterexample). C87_block, C87_gradient and C87_gradient_determines hold without restriction on quotes; C87_block_determines_partial misses only parameters with a quote. Parameters with NUL are in C84."
  },
  {
   "property": "C88",
   "status": "partial",
   "theorems": [
    "Equistore.C88_one_at_a_time_partial",
    "Equistore.C88_after_first_partial",
    "Equistore.C88_after_quiet_partial",
    "Equistore.C88_counterexample",
    "Equistore.C88_counterexample_missing"
   ],
   "note": "The full statement is false of the code: the object is stored before the types of the functions are set, so another thread can get it too early (C88_counterexample), and when a function is missing the second call returns the incomplete object (C88_counterexample_missing). Proved for calls which do not overlap, for all interleavings after a first call alone, and for all interleavings, also of first calls, once no call is running (C88_after_quiet_partial), with libraries which have all functions."
  },
  {
   "property": "C89",
   "status": "partial",
   "theorems": [
    "Equistore.C89_set_path_partial",
    "Equistore.C89_too_late",
    "Equistore.C89_in_time",
    "Equistore.C89_default",
    "Equistore.C89_counterexample"
   ],
   "note": "The full statement is false of the code: a path set while another thread is between reading and writing the path is replaced by the default one (C89_counterexample). C89_set_path_partial holds for all later interleavings when no thread is inside of a use of the library at the moment of the call; C89_too_late, C89_in_time and C89_default hold for all interleavings."
  },
  {
   "property": "C90",
   "status": "partial",
   "theorems": [
    "Equistore.C90_first_partial",
    "Equistore.C90_all_partial",
    "Equistore.C90_unknown_platform",
    "Equistore.C90_counterexample",
    "Equistore.C90_counterexample_loads",
    "Equistore.C90_missing_partial",
    "Equistore.C90_machine_partial"
   ],
   "note": "The full statement is false of the code: the path is stored before the check, so the second use skips the check: it raises OSError when the file is missing (C90_counterexample), and loads a DLL which was refused the first time (C90_counterexample_loads). Proved: the first result, and that no use returns when the file can not be loaded; C90_unknown_platform holds without restriction. C90_missing_partial says it for a missing file, without the model's check of the file. C90_machine_partial does for a DLL for another machine."
  },
  {
   "property": "C91",
   "status": "partial",
   "theorems": [
    "Equistore.C91_accepts",
    "Equistore.C91_refuses_partial",
    "Equistore.C91_counterexample"
   ],
   "note": "C91_accepts is the whole claim about which files are accepted. The claim that all others give ImportError is false: short files give struct.error and bytes which are not UTF-8 give UnicodeDecodeError (C91_counterexample); C91_refuses_partial says exactly which files give ImportError."
  },
  {
   "property": "C92",
   "status": "partial",
   "theorems": [
    "Equistore.C92_operations_partial",
    "Equistore.C92_sequences_partial",
    "Equistore.C92_one_implementation",
    "Equistore.C92_blocks",
    "Equistore.C92_new_block",
    "Equistore.C92_add_gradient",
    "Equistore.C92_counterexample"
   ],
   "note": "The full statement is false of the code: TensorMap::new accepts blocks of different origins, and merging them gives arrays of one implementation to another (C92_counterexample). C92_operations_partial covers all tensor maps where the blocks to be merged have values of one implementation; C92_one_implementation covers any sequence of operations when a single implementation is used. C92_sequences_partial extends this to sequences of operations, C92_blocks shows that in every reachable tensor map each block has the arrays of one implementation."
  },
  {
   "property": "C93",
   "status": "partial",
   "theorems": [
    "Equistore.C93_reads_partial",
    "Equistore.C93_allocated_partial",
    "Equistore.C93_ends",
    "Equistore.C93_same_origin",
    "Equistore.C93_counterexample"
   ],
   "note": "The full statement is false of the code: data_origin ignores the status of the origin callback, so that an origin written by a callback which failed is used (C93_counterexample). The theorems cover all histories where failing callbacks write nothing."
  },
  {
   "property": "C94",
   "status": "partial",
   "theorems": [
    "Equistore.Decl.C94_partial",
    "Equistore.Decl.C94_counterexample",
    "Equistore.Decl.C94_module",
    "Equistore.Decl.C94_equistore"
   ],
   "note": "The full statement is false of the code: a typedef of a pointer (or array, or function) is declared as what it points to, and only the first word of a typedef of several words is read (C94_counterexample). C94_partial covers all headers with simple typedefs, including those of several words where the first one is enough or unknown to ctypes; C94_module and C94_equistore the committed header and module."
  },
  {
   "property": "C95",
   "status": "partial",
   "theorems": [
    "Equistore.C95_labels",
    "Equistore.C95_fixed_size",
    "Equistore.C95_no_names",
    "Equistore.C95_parallel",
    "Equistore.C95_partial",
    "Equistore.C95_counterexample"
   ],
   "note": "The full statement is false of the code: len() of the iterators over a tensor map panics as long as something is left to visit, since it is the len() of a Zip whose first iterator does not define size_hint (C95_counterexample, C95_partial). Labels and parallel iterators are covered completely by C95_labels, C95_fixed_size and C95_parallel. C95_no_names says what happens for labels without names."
  },
  {
   "property": "C96",
   "status": "partial",
   "theorems": [
    "Equistore.C96_partial",
    "Equistore.C96_new",
    "Equistore.C96_wrapper",
    "Equistore.C96_assigned",
    "Equistore.C96_again",
    "Equistore.C96_save",
    "Equistore.C96_blocks",
    "Equistore.C96_gradients",
    "Equistore.C96_counterexample",
    "Equistore.C96_wrong_values"
   ],
   "note": "False of the code: a program can assign array.shape, which the library does not see (C96_counterexample, C96_wrong_values). C96_partial covers all programs which do not: any operations, also failing ones, and any writes of elements. C96_assigned and C96_again say when the shape is wrong and when it is right again."
  },
  {
   "property": "C97",
   "status": "partial",
   "theorems": [
    "Equistore.C97_partial",
    "Equistore.C97_read",
    "Equistore.C97_position",
    "Equistore.C97_counterexample"
   ],
   "note": "False of the code: i32::MAX and i32::MIN are refused by some conversions (C97_counterexample). C97_partial says exactly which numbers are converted and that no number is changed; C97_position relates the release build of usize to the model used for merges."
  },
  {
   "property": "C98",
   "status": "partial",
   "theorems": [
    "Equistore.C98_partial",
    "Equistore.C98_determines",
    "Equistore.C98_columns",
    "Equistore.C98_counterexample"
   ],
   "note": "False of the code: labels without names panic (C98_counterexample). Everything else is proved for all labels with at least one name."
  },
  {
   "property": "C99",
   "status": "partial",
   "theorems": [
    "Equistore.C99_partial",
    "Equistore.C99_places",
    "Equistore.C99_elements",
    "Equistore.C99_counterexample",
    "Equistore.C99_later"
   ],
   "note": "The full statement is false of the code: through values_mut a safe Rust program can replace the labels, the array and the components of a block (C99_counterexample, C99_later). Proved: C99_partial (keys, number of blocks and gradients stay), C99_places (a write changes its place and no other), C99_elements (writes keeping labels, shapes and origins keep tensor maps valid)."
  },
  {
   "property": "C100",
   "status": "partial",
   "theorems": [
    "Equistore.C100_partial",
    "Equistore.C100_labels",
    "Equistore.C100_strings",
    "Equistore.C100_room",
    "Equistore.C100_exact",
    "Equistore.C100_counterexample"
   ],
   "note": "The full statement is false of the code: when the vector of names is full, adding a gradient moves it and the list is dangling (C100_counterexample). C100_partial: readable until a gradient is added to this block or it is dropped; C100_labels: complete for labels; C100_strings: the strings themselves are never moved; C100_room and C100_exact say exactly when the old list can still be read."
  },
  {
   "property": "C101",
   "status": "proved",
   "theorems": [
    "Equistore.C101_defined",
    "Equistore.C101_freed",
    "Equistore.C101_exactly",
    "Equistore.C101_panics",
    "Equistore.C101_strings"
   ],
   "note": "Complete for the model of the memory in Model/NamesMemory.lean (addresses are not reused after free)."
  },
  {
   "property": "C102",
   "status": "proved",
   "theorems": [
    "Equistore.OriginThreads.C102_one_at_a_time",
    "Equistore.OriginThreads.C102_no_panic",
    "Equistore.OriginThreads.C102_same_id",
    "Equistore.OriginThreads.C102_own_ids",
    "Equistore.OriginThreads.C102_name",
    "Equistore.OriginThreads.C102_progress",
    "Equistore.OriginThreads.C102_returns"
   ],
   "note": "Lazy and Mutex are modelled by what once_cell and std document; steps are sequentially consistent; no fairness is assumed, so a thread can be overtaken for ever by new calls of others."
  },
  {
   "property": "C103",
   "status": "partial",
   "theorems": [
    "Equistore.C103_partial",
    "Equistore.C103_labels",
    "Equistore.C103_round_trip",
    "Equistore.C103_components",
    "Equistore.C103_undefined",
    "Equistore.C103_reported",
    "Equistore.C103_counterexample",
    "Equistore.C103_counterexample_components"
   ],
   "note": "False of the code: from_raw_parts is called with NULL for lists without elements, which is undefined behaviour; labels without entries exported by the library can not be given back to it. Proved for pointers which are not NULL; what happens for NULL is characterized for each function."
  },
  {
   "property": "C104",
   "status": "partial",
   "theorems": [
    "Equistore.Props.C104_crate_honest",
    "Equistore.Props.C104_partial",
    "Equistore.Props.C104_crate",
    "Equistore.Props.C104_ndarray",
    "Equistore.Props.C104_empty",
    "Equistore.Props.C104_raw_copy",
    "Equistore.Props.C104_raw_copy_after_drop",
    "Equistore.Props.C104_missing",
    "Equistore.Props.C104_other_origin",
    "Equistore.Props.C104_counterexample",
    "Equistore.Props.C104_counterexample_nul"
   ],
   "note": "False of the code for some implementations of the trait in safe Rust: data shorter than the shape is read out of bounds, and a NUL in the message of a panic makes the panic leave the callback. Proved for all other implementations, in particular the ones of the crate, for all programs by a simulation; C104_ndarray and C104_empty show that the arrays used in the other models are what the callbacks do."
  },
  {
   "property": "C105",
   "status": "partial",
   "theorems": [
    "Equistore.Props.C105_version_partial",
    "Equistore.Props.C105_range",
    "Equistore.Props.C105_directories_partial",
    "Equistore.Props.C105_counterexample",
    "Equistore.Props.C105_counterexample_range"
   ],
   "note": "False of the code: find_package in two directories of which none contains the other is an error (C105_counterexample), and the upper end of ranges is ignored (C105_counterexample_range). Proved: the exact versions accepted for everything but ranges, what is accepted for ranges (C105_range), and exactly which projects can be configured."
  },
  {
   "property": "C106",
   "status": "partial",
   "theorems": [
    "Equistore.Props.C106_partial",
    "Equistore.Props.C106_release",
    "Equistore.Props.C106_other_tags",
    "Equistore.Props.C106_same_version_partial",
    "Equistore.Props.C106_cmake_anywhere",
    "Equistore.Props.C106_no_version",
    "Equistore.Props.C106_counterexample_cmake",
    "Equistore.Props.C106_counterexample"
   ],
   "note": "False of the code for releases: text is compared with the number 0, so each release is called .dev0 if git is available (C106_release, for all releases; C106_counterexample). CMake takes the first version = \"x.y.z\" anywhere in a line, also in rust-version (C106_cmake_anywhere, C106_counterexample_cmake). Proved for all other commits and without git, and the agreement with CMake if there is no such line before."
  },
  {
   "property": "C107",
   "status": "proved",
   "theorems": [
    "Equistore.Props.C107_read",
    "Equistore.Props.C107_write",
    "Equistore.Props.C107_other_order",
    "Equistore.Props.C107_const",
    "Equistore.Props.C107_const_read",
    "Equistore.Props.C107_scalar",
    "Equistore.Props.C107_null"
   ],
   "note": "Proved for all arrays with at least one axis, which all arrays in blocks have. Arrays without axes can not be read at all, as reduce raises for an empty shape (C107_scalar). How long the memory is valid is C77, and which arrays are in row-major order is C51."
  },
  {
   "property": "C108",
   "status": "partial",
   "theorems": [
    "Equistore.Props.C108_null",
    "Equistore.Props.C108_partial",
    "Equistore.Props.C108_destroy",
    "Equistore.Props.C108_library",
    "Equistore.Props.C108_counterexample",
    "Equistore.Props.C108_counterexample_uninitialised",
    "Equistore.Props.C108_same_array"
   ],
   "note": "False of the code for NULL with a count of 0 (C108_counterexample) and for a structure for the new array which was not initialised (C108_counterexample_uninitialised). Proved for all other calls with correct pointers and for all combinations of NULL pointers which are checked (C108_null). C108_library shows that these are the callbacks of C104."
  },
  {
   "property": "C109",
   "status": "partial",
   "theorems": [
    "Equistore.PanicHook.C109_one_at_a_time_partial",
    "Equistore.PanicHook.C109_threads_partial",
    "Equistore.PanicHook.C109_silent_partial",
    "Equistore.PanicHook.C109_once",
    "Equistore.PanicHook.C109_returns_partial",
    "Equistore.PanicHook.C109_counterexample",
    "Equistore.PanicHook.C109_counterexample_lost",
    "Equistore.PanicHook.C109_counterexample_unwinding"
   ],
   "note": "The full statement is false of the code: while a second call is running, panics are printed (C109_counterexample); two calls at the same time lose the hook of the program (C109_counterexample_lost); a call while unwinding ends the process (C109_counterexample_unwinding). Proved: everything if calls are not interrupted (C109_one_at_a_time_partial), for programs without their own hook with any interleaving while no call is running (C109_threads_partial), silence for all programs while no call is running (C109_silent_partial), nothing is ever printed twice (C109_once), and the function returns unless called while unwinding (C109_returns_partial)."
  },
  {
   "property": "C110",
   "status": "proved",
   "theorems": [
    "Equistore.C110_entries",
    "Equistore.C110_loads",
    "Equistore.C110_one_tensor",
    "Equistore.C110_same_entries"
   ],
   "note": "Names of entries are those of the specification (Part.name in Spec/Archive.lean); what one entry says is what the readers of .npy files give (their correctness is C36 to C39)."
  },
  {
   "property": "C111",
   "status": "partial",
   "theorems": [
    "Equistore.C111_one_entry_partial",
    "Equistore.C111_forgotten",
    "Equistore.C111_cut",
    "Equistore.C111_continued",
    "Equistore.C111_missing_partial",
    "Equistore.C111_counterexample"
   ],
   "note": "The full statement is false of the code: without the entry for the data of a gradient of the first block, the tensor map is loaded without this gradient, in all blocks, and no error is reported (C111_counterexample, and C111_forgotten for all files). Proved: all other damages of all entries (C111_one_entry_partial), cut and continued entries without exception (C111_cut, C111_continued), and missing entries except this one (C111_missing_partial)."
  },
  {
   "property": "C112",
   "status": "partial",
   "theorems": [
    "Equistore.C112_slice",
    "Equistore.C112_positions",
    "Equistore.C112_names",
    "Equistore.C112_unique_partial",
    "Equistore.C112_asarray_partial",
    "Equistore.C112_counterexample",
    "Equistore.C112_counterexample_repeated"
   ],
   "note": "The full statement is false of the code: labels[[\"b\"]].asarray() also gives the values of the other names (C112_counterexample), and labels[[0, 0]] has the same entry twice (C112_counterexample_repeated). Which entries are given by each kind of indexing is proved for all labels (C112_slice, C112_positions, C112_names); entries stay different for slices and different positions (C112_unique_partial), and asarray gives the entries if no names were selected (C112_asarray_partial). What numpy does with an index is part of the model."
  },
  {
   "property": "C113",
   "status": "partial",
   "theorems": [
    "Equistore.LabelsMemory.C113_library",
    "Equistore.LabelsMemory.C113_unchanged_partial",
    "Equistore.LabelsMemory.C113_read_only",
    "Equistore.LabelsMemory.C113_read_only_assignment",
    "Equistore.LabelsMemory.C113_taken",
    "Equistore.LabelsMemory.C113_created",
    "Equistore.LabelsMemory.C113_indexed",
    "Equistore.LabelsMemory.C113_assignment",
    "Equistore.LabelsMemory.C113_given_partial",
    "Equistore.LabelsMemory.C113_counterexample",
    "Equistore.LabelsMemory.C113_counterexample_repeated"
   ],
   "note": "C113_library and C113_taken hold for all programs; C113_unchanged_partial holds for labels created in Python if nothing in the same group is assigned to. The full statement is false: labels share the memory of contiguous int32 arrays and are writeable (C113_counterexample, C113_counterexample_repeated). C113_assignment says exactly what an assignment to labels changes. Programs which change flags.writeable are not modelled."
  },
  {
   "property": "C114",
   "status": "partial",
   "theorems": [
    "Equistore.NoSerialization.C114_save",
    "Equistore.NoSerialization.C114_load",
    "Equistore.NoSerialization.C114_rejected",
    "Equistore.NoSerialization.C114_never",
    "Equistore.NoSerialization.C114_unchanged_partial",
    "Equistore.NoSerialization.C114_emptied",
    "Equistore.NoSerialization.C114_lost",
    "Equistore.NoSerialization.C114_counterexample"
   ],
   "note": "C114_never, C114_save, C114_load and C114_rejected give the outcome of all calls; C114_unchanged_partial says that files no call saves to are unchanged. The full statement is false: eqs_tensormap_save makes the file empty before it fails (C114_counterexample, C114_lost). C114_emptied says that nothing else can happen to files."
  },
  {
   "property": "C115",
   "status": "proved",
   "theorems": [
    "Equistore.C115_visible",
    "Equistore.C115_block",
    "Equistore.C115_block_invalid",
    "Equistore.C115_add_gradient",
    "Equistore.C115_add_gradient_invalid",
    "Equistore.C115_tensormap",
    "Equistore.C115_keys_to_properties",
    "Equistore.C115_keys_to_samples",
    "Equistore.C115_components_to_properties",
    "Equistore.C115_read_tensor",
    "Equistore.C115_read_block",
    "Equistore.C115_save",
    "Equistore.C115_load",
    "Equistore.C115_null",
    "Equistore.C115_add_gradient_null"
   ],
   "note": "About the functions on the heap of Model/CHeap.lean. Copies of blocks are in C49, releasing in C47. Hash maps may have any order which depends on the names of the gradients only (OrderByName). Everything which a call is not meant to change stays the same by C49_independent."
  },
  {
   "property": "C116",
   "status": "proved",
   "theorems": [
    "Equistore.C116_names",
    "Equistore.C116_unknown",
    "Equistore.C116_register_null",
    "Equistore.C116_register_not_utf8",
    "Equistore.C116_get_null"
   ],
   "note": "Empty buffers in release builds are the defect of C44 and not part of the statement. A name with a NUL cannot be given as a C string."
  },
  {
   "property": "C117",
   "status": "proved",
   "theorems": [
    "Equistore.Props.C117_ndarray",
    "Equistore.Props.C117_refused",
    "Equistore.Props.C117_exact",
    "Equistore.Props.C117_null",
    "Equistore.Props.C117_disabled",
    "Equistore.Props.C117_same_data",
    "Equistore.Props.C117_pretending"
   ],
   "note": "C117_ndarray, C117_refused and C117_null give the result of all calls with the ndarray feature, C117_exact joins them, C117_disabled is without the feature. C117_same_data: the same as data and shape of the array itself. C117_pretending: arrays of somebody else which give the origin of ndarray (a C program can register this name and gets the same number) are used as arrays of Rust, which is undefined behaviour; they are excluded by Truthful. Which arrays are in row-major order is C51."
  },
  {
   "property": "C118",
   "status": "partial",
   "theorems": [
    "Equistore.Props.C118_configures",
    "Equistore.Props.C118_partial",
    "Equistore.Props.C118_python_refused",
    "Equistore.Props.C118_python_configures",
    "Equistore.Props.C118_python_partial",
    "Equistore.Props.C118_python_history_partial",
    "Equistore.Props.C118_counterexample",
    "Equistore.Props.C118_counterexample_cargo",
    "Equistore.Props.C118_counterexample_json",
    "Equistore.Props.C118_counterexample_cache"
   ],
   "note": "C118_full_statement is false: CARGO_TARGET_DIR makes cargo write its files elsewhere, and an older library is installed if there is one (C118_counterexample); CMake checks CARGO_EXE but runs the cargo of the PATH (C118_counterexample_cargo); a target described by a file is not found (C118_counterexample_json); setup.py keeps the target of the last build (C118_counterexample_cache). C118_configures and C118_python_configures say exactly when CMake and setup.py succeed. C118_python_history_partial says which target is used after any number of runs. C118_partial and C118_python_partial prove the rest of the statement without these variables, for the cargo of the PATH, for names without semicolons. What cargo does is part of the specification."
  },
  {
   "property": "C119",
   "status": "partial",
   "theorems": [
    "Equistore.Props.C119_files",
    "Equistore.Props.C119_seen",
    "Equistore.Props.C119_fresh",
    "Equistore.Props.C119_after_failure",
    "Equistore.Props.C119_partial",
    "Equistore.Props.C119_exact",
    "Equistore.Props.C119_recovers",
    "Equistore.Props.C119_counterexample",
    "Equistore.Props.C119_failure",
    "Equistore.Props.C119_counterexample_error",
    "Equistore.Props.C119_counterexample_removed"
   ],
   "note": "C119_full_statement is false: a file made after its mod line was seen by the script is not in the header (C119_counterexample), errors of cbindgen are ignored and the old header is kept (C119_counterexample_error), a removed or changed header is not made again (C119_counterexample_removed). C119_partial proves it for all histories without these, C119_exact says exactly when the next header is right; C119_fresh, C119_seen, C119_after_failure, C119_failure and C119_files hold for all histories. Missing: changes of Cargo.toml, build.rs and the compiler, which make cargo run the script again. C119_recovers: after builds where cbindgen failed, the next change makes the header right again."
  },
  {
   "property": "C120",
   "status": "proved",
   "theorems": [
    "Equistore.C120_ends",
    "Equistore.C120_installed",
    "Equistore.C120_set_path",
    "Equistore.C120_returns"
   ],
   "note": "Proved for all computers, histories and interleavings: C120_returns (with a library which is installed every call returns it within 32 steps of its thread), C120_installed, C120_set_path, C120_ends (every call ends, also when it fails)."
  }
 ]
}