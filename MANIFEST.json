{"claims": [
 {"property": "C01", "status": "proved", "theorems": ["Verif.C01_parallel_sort", "Verif.C01_passes"], "note": "element type is a total order (no NaN); exchange is the result of my_alltoallv, see C05/C06"},
 {"property": "C02", "status": "proved", "theorems": ["Verif.C02_parallel_sort_index"], "note": ""},
 {"property": "C03", "status": "proved", "theorems": ["Verif.C03_find_splitting_points", "Verif.C03_passes"], "note": "exact weights; at most 3 (log2 N + 1) passes"},
 {"property": "C04", "status": "proved", "theorems": ["Verif.C04_weighted_median"], "note": "exact rational weights instead of float64"},
 {"property": "C05", "status": "proved", "theorems": ["Verif.C05_alltoallv", "Verif.C05_consecutive", "Verif.C05_rows", "Verif.C05_no_chunk_diverges"], "note": "message level model with all interleavings, buffered and rendezvous; chunk size positive (the code computes 0 for elements above 100 MB and then loops)"},
 {"property": "C06", "status": "proved", "theorems": ["Verif.C06_async"], "note": ""},
 {"property": "C07", "status": "proved", "theorems": ["Verif.C07_sendrecv"], "note": ""},
 {"property": "C08", "status": "proved", "theorems": ["Verif.C08_repartition"], "note": "trailing dimensions are part of the element type"},
 {"property": "C09", "status": "proved", "theorems": ["Verif.C09_fetch_elements"], "note": ""},
 {"property": "C10", "status": "proved", "theorems": ["Verif.C10_sort_index_fetch"], "note": ""},
 {"property": "C100", "status": "proved", "theorems": ["Verif.C100_read", "Verif.C100_halo", "Verif.C100_flags", "Verif.C100_flags_any", "Verif.C100_numpy_defect", "Verif.C100_short"], "note": "np.int is taken as 8 bytes (64 bit Linux). The sizes of the dataset are exact integers; in NumPy before version 2 they are floating point numbers, exact below 2^53. The defect is proved."},
 {"property": "C101", "status": "proved", "theorems": ["Verif.IdlReaders.C101_subhalos", "Verif.IdlReaders.C101_single", "Verif.IdlReaders.C101_multi", "Verif.IdlReaders.C101_potential", "Verif.IdlReaders.C101_trees", "Verif.IdlReaders.C101_all_halos", "Verif.IdlReaders.C101_halo", "Verif.IdlReaders.C101_treeaux", "Verif.IdlReaders.C101_empty_defect", "Verif.IdlReaders.C101_groups_defect", "Verif.IdlReaders.C101_multi_defect", "Verif.IdlReaders.C101_multi_name_defect", "Verif.IdlReaders.C101_potential_defect", "Verif.IdlReaders.C101_trees_defect", "Verif.IdlReaders.C101_blank_defect"], "note": "The semantics of IDL are modelled from its documentation: arrays of size 0 are errors, the type of the counters of files is a 16 bit integer. Plots and printed lines are left out. The defects are proved."},
 {"property": "C102", "status": "proved", "theorems": ["Verif.C102_repartition", "Verif.C102_fetch", "Verif.C102_columns_defect", "Verif.C102_fetch_defect", "Verif.C102_result_defect", "Verif.C102_step_defect", "Verif.C102_column_step_defect"], "note": "Views, empty_like and the buffers of mpi4py are modelled from the documentation of NumPy and mpi4py. More than two dimensions are not modelled in memory. The defects are proved."},
 {"property": "C103", "status": "proved", "theorems": ["Verif.WriteHdf5.C103_write", "Verif.WriteHdf5.C103_file_attributes_defect", "Verif.WriteHdf5.C103_empty_defect"], "note": "h5py and the limits on chunks are taken from the documentation; the limit on the size of attributes is left out."},
 {"property": "C104", "status": "proved", "theorems": ["Verif.MultiFileRead.C104_read", "Verif.MultiFileRead.C104_unpack", "Verif.MultiFileRead.C104_single", "Verif.MultiFileRead.C104_attributes", "Verif.MultiFileRead.C104_string_defect", "Verif.MultiFileRead.C104_string_collective", "Verif.MultiFileRead.C104_unpack_defect", "Verif.MultiFileRead.C104_extra_names_defect"], "note": "Names of datasets and groups have no slashes. Collective reading of one dataset is as in Model/MultiFile.lean."},
 {"property": "C105", "status": "proved", "theorems": ["Verif.MultiFileWrite.C105_write", "Verif.MultiFileWrite.C105_copy", "Verif.MultiFileWrite.C105_wrong_number"], "note": "Names of datasets and groups have no slashes. Property lists are separate (C106)."},
 {"property": "C106", "status": "proved", "theorems": ["Verif.MultiFileWrite.C106_compress", "Verif.MultiFileWrite.C106_unchanged", "Verif.MultiFileWrite.C106_wide_rows_defect", "Verif.MultiFileWrite.C106_empty_defect", "Verif.MultiFileWrite.C106_chunks_defect", "Verif.MultiFileWrite.C106_zero_defect"], "note": "What HDF5 accepts is taken from its documentation."},
 {"property": "C107", "status": "proved", "theorems": ["Verif.MultiFileInit.C107_format", "Verif.MultiFileInit.C107_indexes", "Verif.MultiFileInit.C107_sequence", "Verif.MultiFileInit.C107_ignored_defect", "Verif.MultiFileInit.C107_hang_defect", "Verif.MultiFileInit.C107_no_files_defect"], "note": "substitute_file_nr is a parameter (see its own property)."},
 {"property": "C108", "status": "proved", "theorems": ["Verif.FortranPrograms.C108_fof", "Verif.FortranPrograms.C108_subhalos", "Verif.FortranPrograms.C108_fof_stops", "Verif.FortranPrograms.C108_no_groups_defect"], "note": "IDs of particles are unique; the pointers given to readregion are not associated; printed numbers are represented by their bytes."},
 {"property": "C109", "status": "proved", "theorems": ["Verif.FortranPrograms.C109_box", "Verif.FortranPrograms.C109_empty_defect", "Verif.FortranPrograms.C109_one_cell_defect"], "note": "Floating-point numbers are values of a linear order; INT((x/lbox)*n) is a monotone function."},
 {"property": "C11", "status": "proved", "theorems": ["Verif.C11_parallel_match", "Verif.C11_passes"], "note": ""},
 {"property": "C110", "status": "proved", "theorems": ["Verif.FortranPrograms.C110_subhalos", "Verif.FortranPrograms.C110_global_index", "Verif.FortranPrograms.C110_file"], "note": "Printed numbers are represented by their bytes."},
 {"property": "C111", "status": "proved", "theorems": ["Verif.PythonPrograms.C111_group", "Verif.PythonPrograms.C111_sound"], "note": "IDs are natural numbers below 2^64; plots are left out."},
 {"property": "C112", "status": "proved", "theorems": ["Verif.PythonPrograms.C112_millennium2", "Verif.PythonPrograms.C112_millennium", "Verif.PythonPrograms.C112_periodic", "Verif.PythonPrograms.C112_missing_defect", "Verif.PythonPrograms.C112_bits_defect"], "note": "Exact arithmetic in an ordered field with floor; plots are left out; names which the Millennium program does not define (np, sqrt) are taken as defined."},
 {"property": "C113", "status": "proved", "theorems": ["Verif.WrappedText.C113_lines", "Verif.WrappedText.C113_one_line", "Verif.WrappedText.C113_narrow_defect", "Verif.WrappedText.C113_abort"], "note": "Lines are lists of characters; the MPI rank in messages of hdf5_abort is as in the code."},
 {"property": "C114", "status": "proved", "theorems": ["Verif.Hdf5.C114_datasets", "Verif.Hdf5.C114_groups", "Verif.Hdf5.C114_not_group", "Verif.Hdf5.C114_attributes", "Verif.Hdf5.C114_long_defect"], "note": "The order of objects is any permutation; storing after the end of the array is undefined in Fortran and an error in the model."},
 {"property": "C115", "status": "proved", "theorems": ["Verif.MassFunction.C115_massfunc", "Verif.MassFunction.C115_cumulative", "Verif.MassFunction.C115_small_defect"], "note": "Numbers in double precision are integers; what is plotted is the result."},
 {"property": "C116", "status": "proved", "theorems": ["Verif.Profiles.C116_show_profile", "Verif.Profiles.C116_plot_vmax"], "note": "Exact arithmetic; what is plotted is the result; particles of the region around the centre are given by a function."},
 {"property": "C117", "status": "proved", "theorems": ["Verif.Profiles.C117_density_defect"], "note": "Exact arithmetic; the fit of a profile is left out."},
 {"property": "C118", "status": "proved", "theorems": ["Verif.Profiles.C118_rvmax"], "note": "Exact arithmetic with a square root; data read from files are arguments."},
 {"property": "C119", "status": "proved", "theorems": ["Verif.Spectrum.C119_bands", "Verif.Spectrum.C119_complete", "Verif.Spectrum.C119_target", "Verif.Spectrum.C119_bins_defect", "Verif.Spectrum.C119_linear", "Verif.Spectrum.C119_plot"], "note": "Exact arithmetic; tables read from files are arguments; at most 32767 rows (16 bit index in IDL)."},
 {"property": "C12", "status": "proved", "theorems": ["Verif.C12_parallel_match_sorted"], "note": ""},
 {"property": "C120", "status": "proved", "theorems": ["Verif.SnapshotPaths.C120_store", "Verif.SnapshotPaths.C120_fortran", "Verif.SnapshotPaths.C120_open", "Verif.SnapshotPaths.C120_distinct", "Verif.SnapshotPaths.C120_gadget"], "note": ""},
 {"property": "C121", "status": "proved", "theorems": ["Verif.SortTests.C121_sort_iff", "Verif.SortTests.C121_sort_passes", "Verif.SortTests.C121_large_iff", "Verif.SortTests.C121_large_passes", "Verif.SortTests.C121_large_defect", "Verif.SortTests.C121_repartition_passes", "Verif.SortTests.C121_repartition_defect", "Verif.SortTests.C121_unique_passes", "Verif.SortTests.C121_unique_counts_defect", "Verif.SortTests.C121_unique_broadcast_defect"], "note": ""},
 {"property": "C122", "status": "proved", "theorems": ["Verif.SortTests.C122_bincount_passes", "Verif.SortTests.C122_match_verified", "Verif.SortTests.C122_make_array", "Verif.SortTests.C122_match_passes", "Verif.SortTests.C122_pairs", "Verif.SortTests.C122_sendrecv"], "note": "Weights are added exactly; passes of the loop of run_sendrecv_test are considered one at a time."},
 {"property": "C123", "status": "proved", "theorems": ["Verif.UtilTests.C123_distribution", "Verif.UtilTests.C123_iff", "Verif.UtilTests.C123_passes", "Verif.UtilTests.C123_few_ids_defect"], "note": ""},
 {"property": "C124", "status": "proved", "theorems": ["Verif.Hdf5.C124_routines", "Verif.Hdf5.C124_write", "Verif.Hdf5.C124_read", "Verif.Hdf5.C124_attributes", "Verif.Hdf5.C124_seven_defect", "Verif.Hdf5.C124_seven_lost_defect", "Verif.Hdf5.C124_seven_unreadable_defect"], "note": "The four tables of macros are transcribed completely, in the order of the files."},
 {"property": "C125", "status": "proved", "theorems": ["Verif.ParallelHdf5Tests.C125_read_iff", "Verif.ParallelHdf5Tests.C125_read", "Verif.ParallelHdf5Tests.C125_write_iff", "Verif.ParallelHdf5Tests.C125_write", "Verif.ParallelHdf5Tests.C125_multi_file_iff", "Verif.ParallelHdf5Tests.C125_multi_file", "Verif.ParallelHdf5Tests.C125_no_data", "Verif.ParallelHdf5Tests.C125_types_differ", "Verif.ParallelHdf5Tests.C125_inconsistent", "Verif.ParallelHdf5Tests.C125_round_trip_iff", "Verif.ParallelHdf5Tests.C125_round_trip", "Verif.ParallelHdf5Tests.C125_one_element_defect", "Verif.ParallelHdf5Tests.C125_lost_defect"], "note": "Attributes, groups, names of files and compression are left out here; C104, C105 and C107 are about them."},
 {"property": "C126", "status": "proved", "theorems": ["Verif.Hdf5Parts.C126_sequence", "Verif.Hdf5Parts.C126_no_room", "Verif.Hdf5Parts.C126_new", "Verif.Hdf5Parts.C126_pieces", "Verif.Hdf5Parts.C126_blocks", "Verif.Hdf5Parts.C126_rows"], "note": "Each call opens the dataset again by its name; that the file then finds the same dataset is C96."},
 {"property": "C127", "status": "proved", "theorems": ["Verif.ShowGroup.C127_groups", "Verif.ShowGroup.C127_few_groups_defect", "Verif.ShowGroup.C127_cubes", "Verif.ShowGroup.C127_files_defect"], "note": "Positions are exact numbers. If a function of the library fails the model stops, whereas IDL would go on with arrays of zeros."},
 {"property": "C128", "status": "proved", "theorems": ["Verif.IdlTables.C128_table", "Verif.IdlTables.C128_sub_tree", "Verif.IdlTables.C128_same_iff", "Verif.IdlTables.C128_sub_tree_defect", "Verif.IdlTables.C128_group", "Verif.IdlTables.C128_group_subhalos", "Verif.IdlTables.C128_no_subhalos_defect", "Verif.IdlTables.C128_place"], "note": "The procedures which read groups, subhalos and trees are arguments of the model."},
 {"property": "C129", "status": "proved", "theorems": ["Verif.BinaryMapping.C129_keys", "Verif.BinaryMapping.C129_rows", "Verif.BinaryMapping.C129_scalar", "Verif.BinaryMapping.C129_close", "Verif.BinaryMapping.C129_close_defect"], "note": "A member which holds the file is one whose map is open. Deallocation of maps is as for C50."},
 {"property": "C13", "status": "proved", "theorems": ["Verif.C13_parallel_unique", "Verif.C13_passes"], "note": ""},
 {"property": "C130", "status": "proved", "theorems": ["Verif.Errchk.C130_terminates", "Verif.Errchk.C130_no_hang", "Verif.Errchk.C130_without", "Verif.Errchk.C130_exit_defect"], "note": "A collective call returns on a rank only after all ranks have made it. Abort ends all ranks at once."},
 {"property": "C131", "status": "proved", "theorems": ["Verif.SubhaloCatalogue.C131_lines", "Verif.SubhaloCatalogue.C131_place", "Verif.SubhaloCatalogue.C131_missing"], "note": "The text of floating point numbers is a parameter."},
 {"property": "C132", "status": "proved", "theorems": ["Verif.SnapshotPrograms.C132_python", "Verif.SnapshotPrograms.C132_idl", "Verif.SnapshotPrograms.C132_agree"], "note": "h5py and the HDF5 functions of IDL return datasets as they are in the file."},
 {"property": "C133", "status": "proved", "theorems": ["Verif.Hdf5.C133_dataset_kept", "Verif.Hdf5.C133_round_trip", "Verif.Hdf5.C133_attribute_round_trip"], "note": "As in C96, C133_round_trip is for programs which do not replace the dataset which was read last."},
 {"property": "C134", "status": "proved", "theorems": ["Verif.Hdf5.C134_tests"], "note": "The programs name the file ./test.hdf5 and test.hdf5, which is one name in the model."},
 {"property": "C135", "status": "proved", "theorems": ["Verif.SortNan.C135_nan"], "note": "NaN is the largest element of a linear order for sorting and searching. A defect: with more NaN the sort fails."},
 {"property": "C136", "status": "proved", "theorems": ["Verif.Rounded.C136_weighted_median", "Verif.Rounded.C136_split", "Verif.Rounded.C136_passes", "Verif.Rounded.C136_same", "Verif.Rounded.C136_sort", "Verif.Double.nearest_roundDouble"], "note": "Results are rounded to a nearest number with 53 bits; exponents are not limited."},
 {"property": "C137", "status": "proved", "theorems": ["Verif.FloatBits.C137_keys", "Verif.FloatBits.C137_same", "Verif.FloatBits.C137_edge_defect", "Verif.FloatBits.nearest_roundTo"], "note": "Exponents are not limited. C137_edge_defect says for which sizes of the box the edge is wrapped around."},
 {"property": "C138", "status": "proved", "theorems": ["Verif.MatchNan.C138_match", "Verif.MatchNan.C138_parallel_match", "Verif.MatchNan.C138_one_task_defect", "Verif.MatchNan.C138_many", "Verif.MatchNan.C138_empty", "Verif.MatchNan.C138_sorted"], "note": "NaN is the largest element of the type, which isn't equal to itself in comparisons. FirstMatch says what parallel_match should return."},
 {"property": "C139", "status": "proved", "theorems": ["Verif.Decode.C139_unsigned", "Verif.Decode.C139_signed", "Verif.Decode.C139_bytes", "Verif.Decode.C139_cell_id"], "note": "Says what the decoding functions mean which are used in the theorems on file formats and programs."},
 {"property": "C14", "status": "proved", "theorems": ["Verif.C14_parallel_unique_counts"], "note": ""},
 {"property": "C140", "status": "proved", "theorems": ["Verif.UniqueNan.C140_unique", "Verif.UniqueNan.C140_many", "Verif.UniqueNan.C140_sorted_defect", "Verif.UniqueNan.C140_repartition"], "note": "np.unique returns NaN once (NumPy 1.21 and later)."},
 {"property": "C141", "status": "proved", "theorems": ["Verif.FloatBits.C141_same", "Verif.FloatBits.C141_region", "Verif.FloatBits.C141_keys"], "note": "Exponents are not limited. Sizes of cells and results of the division are rounded; NumPy accepts floating point numbers as sizes in C141_region (see C56)."},
 {"property": "C142", "status": "proved", "theorems": ["Verif.C142_any", "Verif.C142_rank_order", "Verif.C142_rounded_sum", "Verif.C142_whole_numbers", "Verif.C142_bincount", "Verif.C142_few_weights", "Verif.C142_bincount_rounded"], "note": "Exponents are not limited. exists_nearestTo shows that the hypothesis on rounding can be met."},
 {"property": "C143", "status": "proved", "theorems": ["Verif.FloatBits.C143_cells", "Verif.FloatBits.C143_region"], "note": "Exponents are not limited; int overflow is part of the model (C90)."},
 {"property": "C144", "status": "proved", "theorems": ["Verif.FloatBits.C144_centre", "Verif.FloatBits.C144_coordinates", "Verif.FloatBits.C144_wrap_defect", "Verif.FloatBits.C144_box_defect"], "note": "Reading of the files is as in C89. Exponents are not limited."},
 {"property": "C15", "status": "proved", "theorems": ["Verif.C15_parallel_unique_repartition"], "note": ""},
 {"property": "C16", "status": "proved", "theorems": ["Verif.C16_reduce_elements", "Verif.C16_reduce_elements_invalid"], "note": "np.argsort is any sorting permutation"},
 {"property": "C17", "status": "proved", "theorems": ["Verif.C17_parallel_bincount", "Verif.C17_parallel_bincount_result", "Verif.C17_parallel_bincount_small", "Verif.C17_parallel_bincount_unweighted", "Verif.C17_parallel_bincount_negative"], "note": "one bin if there are no values at all (numpy gives none); weights added exactly"},
 {"property": "C18", "status": "proved", "theorems": ["Verif.C18_slots", "Verif.C18_fails_iff", "Verif.C18_values", "Verif.C18_too_large", "Verif.C18_negative_stale", "Verif.C18_negative_index_counterexample", "Verif.C18_negative_index_stale"], "note": "negative indexes are not rejected by the code: the theorems say exactly what comes back, C18_negative_stale that it is never the right answer"},
 {"property": "C19", "status": "proved", "theorems": ["Verif.C19_match_halos", "Verif.C19_best_match_unique"], "note": "IDs of the second snapshot unique"},
 {"property": "C20", "status": "proved", "theorems": ["Verif.C20_consistent_match", "Verif.C20_consistent_match_invalid"], "note": ""},
 {"property": "C21", "status": "proved", "theorems": ["Verif.C21_group_index", "Verif.C21_group_index_member", "Verif.C21_unsorted_wrong"], "note": "offsets ascending on each rank, which the code needs (counterexample proved)"},
 {"property": "C22", "status": "proved", "theorems": ["Verif.C22_group_rank", "Verif.C22_group_rank_member"], "note": "as C21"},
 {"property": "C23", "status": "proved", "theorems": ["Verif.C23_replace_none", "Verif.C23_replace_none_uniform"], "note": ""},
 {"property": "C24", "status": "proved", "theorems": ["Verif.C24_gather_array", "Verif.C24_gather_array_other", "Verif.C24_allgather_array", "Verif.C24_concat_unique"], "note": "any number of dimensions"},
 {"property": "C25", "status": "proved", "theorems": ["Verif.C25_parse_args", "Verif.C25_parse_args_same", "Verif.C25_help_on_root_hangs"], "note": "argparse itself is a parameter: any outcome on any rank"},
 {"property": "C26", "status": "proved", "theorems": ["Verif.C26_assign_files", "Verif.C26_assign_files_unbalanced"], "note": "also an upper bound, which is attained"},
 {"property": "C27", "status": "proved", "theorems": ["Verif.C27_layout_independent", "Verif.C27_independent_unique", "Verif.C27_layout_collective", "Verif.C27_collective_total", "Verif.C27_no_files"], "note": ""},
 {"property": "C28", "status": "proved", "theorems": ["Verif.C28_C29_read", "Verif.C28_read_missing", "Verif.C28_byte_order_depends_on_ranks"], "note": "datasets of one type and shape (if the raw byte orders differ the answer does depend on the number of ranks, shown by witness); in collective mode rows must fit in the buffer"},
 {"property": "C29", "status": "proved", "theorems": ["Verif.C28_C29_read"], "note": "as C28"},
 {"property": "C30", "status": "proved", "theorems": ["Verif.C30_round_trip"], "note": "as C28; distinct files with the same file number must have equal lengths"},
 {"property": "C31", "status": "proved", "theorems": ["Verif.C31_collective_read"], "note": ""},
 {"property": "C32", "status": "proved", "theorems": ["Verif.C32_collective_write", "Verif.C32_inconsistent"], "note": ""},
 {"property": "C33", "status": "proved", "theorems": ["Verif.C33_collective_write_diverges", "Verif.C33_collective_read_unread", "Verif.C33_collective_read_small"], "note": "a defect of the code, proved as such"},
 {"property": "C34", "status": "proved", "theorems": ["Verif.C34_match", "Verif.C34_match_index", "Verif.C34_match_sorted", "Verif.C34_match_unique"], "note": ""},
 {"property": "C35", "status": "proved", "theorems": ["Verif.C35_assign_ranges", "Verif.C35_assign_ranges_point", "Verif.C35_assign_ranges_error", "Verif.C35_single_range_unchecked", "Verif.C35_lengths_differ"], "note": ""},
 {"property": "C36", "status": "proved", "theorems": ["Verif.C36_sum_ranges", "Verif.C36_empty", "Verif.C36_sum_ranges_error"], "note": "exact arithmetic"},
 {"property": "C37", "status": "proved", "theorems": ["Verif.C37_inverse_of_key", "Verif.C37_key_of_inverse", "Verif.C37_arrays"], "note": "bits from 1 to 21; more bits raise in peano_hilbert_key_inverses"},
 {"property": "C38", "status": "proved", "theorems": ["Verif.C38_range", "Verif.C38_low_bits", "Verif.C38_overflow"], "note": "the range claim first written for every bits is false above 21 bits; C38_overflow proves that"},
 {"property": "C39", "status": "proved", "theorems": ["Verif.C39_adjacent"], "note": ""},
 {"property": "C40", "status": "proved", "theorems": ["Verif.C40_nest", "Verif.C40_same_coarse_cell"], "note": ""},
 {"property": "C41", "status": "proved", "theorems": ["Verif.C41_keys", "Verif.C41_inverses"], "note": ""},
 {"property": "C42", "status": "proved", "theorems": ["Verif.C42_format", "Verif.C42_missing", "Verif.C42_two_steps", "Verif.C42_escapes_lost", "Verif.C42_conversion_lost"], "note": "Stated for plain named fields. Doubled braces and conversions are lost by the code, shown by witnesses."},
 {"property": "C43", "status": "proved", "theorems": ["Verif.C43_read_multi", "Verif.C43_rows", "Verif.C43_nowhere", "Verif.C43_duplicate_name"], "note": "The duplicate name theorem is a witness; the others hold for all inputs."},
 {"property": "C44", "status": "proved", "theorems": ["Verif.C44_offset", "Verif.C44_declared", "Verif.C44_failed", "Verif.C44_disjoint"], "note": ""},
 {"property": "C45", "status": "proved", "theorems": ["Verif.C45_sound", "Verif.C45_iff"], "note": "The converse needs non-empty blocks; a case beside it shows why."},
 {"property": "C46", "status": "proved", "theorems": ["Verif.C46_declare", "Verif.C46_lookup", "Verif.C46_block", "Verif.C46_missing", "Verif.C46_declare_attribute", "Verif.C46_lookup_attribute", "Verif.C46_attribute_block", "Verif.C46_attribute_slash_defect"], "note": "Datasets and attributes. The name of an attribute of a dataset is the rest of the path as it is written: slashes are not stripped from it."},
 {"property": "C47", "status": "proved", "theorems": ["Verif.C47_read", "Verif.C47_swapped", "Verif.C47_outside"], "note": "Complex and structured types are not modelled."},
 {"property": "C48", "status": "proved", "theorems": ["Verif.C48_set_endian", "Verif.C48_history", "Verif.C48_enable_byteswap", "Verif.C48_group_attribute", "Verif.C48_attribute", "Verif.C48_toggle_native", "Verif.C48_toggle_defect", "Verif.C48_dataset_attribute_defect"], "note": "The documented claim is false in two cases, shown by the defect theorems; the statement was narrowed to what holds."},
 {"property": "C49", "status": "proved", "theorems": ["Verif.C49_accept", "Verif.C49_outcome", "Verif.C49_auto_native", "Verif.C49_auto_swapped", "Verif.C49_auto_long", "Verif.C49_auto_only", "Verif.C49_explicit_order_defect"], "note": "The swapped case needs native order before; the defect theorem shows what happens otherwise."},
 {"property": "C50", "status": "proved", "theorems": ["Verif.C50_bounded", "Verif.C50_own_file", "Verif.C50_transparent", "Verif.C50_never_other", "Verif.C50_open_once", "Verif.C50_no_leak"], "note": "Every history of making, reading, closing and dropping datasets and of deallocating maps at any allowed time. Files on disk do not change meanwhile."},
 {"property": "C51", "status": "proved", "theorems": ["Verif.C51_write_read", "Verif.C51_write_read_default", "Verif.C51_default_mode_defect", "Verif.C51_hash_input", "Verif.C51_hash_swapped", "Verif.C51_hash_file", "Verif.C51_hash_refused"], "note": "The hash function itself is not modelled, only its input."},
 {"property": "C52", "status": "proved", "theorems": ["Verif.C52_reversed", "Verif.C52_snapshot_rejected", "Verif.C53_snapshot", "Verif.C69_lgadget2_group_tab", "Verif.C69_lgadget2_sub_tab", "Verif.C69_lgadget2_sub_ids", "Verif.C69_lgadget3_sub_tab", "Verif.C69_lgadget3_sub_ids", "Verif.C69_pgadget3_ids", "Verif.C69_pgadget3_group_tab", "Verif.C69_pgadget3_sub_tab"], "note": "C69 and C53 contain that either byte order is recognised, on either kind of machine. An empty file gives ValueError instead of IOError."},
 {"property": "C53", "status": "proved", "theorems": ["Verif.C53_snapshot", "Verif.C53_truncated"], "note": "Numbers of particles are not negative, records shorter than 2^32 bytes, names of extra quantities are distinct and contain no slash. Sums of particle numbers do not overflow (int32 in the code)."},
 {"property": "C54", "status": "proved", "theorems": ["Verif.C54_range", "Verif.C54_in_bounds", "Verif.C54_group", "Verif.C54_duplicate_names"], "note": "Each array has as many rows as the header of its file says. Names of arrays are distinct: a name given twice doubles its array. Offsets are integers without overflow."},
 {"property": "C55", "status": "proved", "theorems": ["Verif.C55_complete", "Verif.C55_returned", "Verif.C55_lost", "Verif.C55_table", "Verif.C55_no_subhalos", "Verif.C55_by_file"], "note": "Each array has as many rows as the header of its file says, the subhalos of the group are in the table and not longer than the group. C55_lost shows the defect: a particle is missing at some file boundaries."},
 {"property": "C56", "status": "proved", "theorems": ["Verif.C56_cells", "Verif.C56_bad_keys", "Verif.C56_grid", "Verif.C56_region", "Verif.C56_region_defect"], "note": "Particles are sorted by cell and the hash table of each file is that of its particles. C56_region is for NumPy before 1.12, in exact arithmetic, for grids of 8^bits cells with 1 to 21 bits and files which cover all cells."},
 {"property": "C57", "status": "proved", "theorems": ["Verif.C57_returns", "Verif.C57_cycle", "Verif.C57_numbers", "Verif.C57_before_progenitors", "Verif.C57_progenitor_order"], "note": "Unique halo indexes, arrays of equal length, any answer argsort may give. Integers do not overflow."},
 {"property": "C58", "status": "proved", "theorems": ["Verif.C58_progenitors"], "note": "As C57, for every forest without cycles."},
 {"property": "C59", "status": "proved", "theorems": ["Verif.C59_main_branch"], "note": "As C57. Among progenitors of equal largest branch mass the choice depends on argsort; the theorem gives the choice which was made."},
 {"property": "C60", "status": "proved", "theorems": ["Verif.C60_tree_mass"], "note": "Every forest with unique indexes and descendants at later snapshots, every array order. Masses are exact (any commutative monoid); the code sums in float64 and stores the result in the type of the masses."},
 {"property": "C61", "status": "proved", "theorems": ["Verif.C61_branch_mass"], "note": "The result is attained by a chain of progenitors and bounds all of them. Any ordered commutative monoid as masses."},
 {"property": "C62", "status": "proved", "theorems": ["Verif.C62_main_progenitor", "Verif.C62_file_order", "Verif.C62_ties"], "note": "Exact masses. Halos in arbitrary order, any lexsort/argsort result. Snapshots of descendants are not restricted."},
 {"property": "C63", "status": "proved", "theorems": ["Verif.C63_present", "Verif.C63_missing", "Verif.C63_unknown", "Verif.C63_found"], "note": "Base directories without wildcards and newlines, numbers not negative. C63_missing shows that the cache hides missing files."},
 {"property": "C64", "status": "proved", "theorems": ["Verif.C64_once", "Verif.C64_terminates", "Verif.C64_finishes", "Verif.C64_output", "Verif.C64_unique", "Verif.C64_directory"], "note": "os.walk as a fixed list. Steps in which rank 0 finds no message in the final loop do not count; without them the number of steps is bounded."},
 {"property": "C65", "status": "proved", "theorems": ["Verif.C65_database", "Verif.C65_resume", "Verif.C65_fresh", "Verif.C65_refused"], "note": "Every path is in one directory. A commit is atomic. hash_file is a function of the path which does not change between runs."},
 {"property": "C66", "status": "proved", "theorems": ["Verif.C66_units", "Verif.C66_missing"], "note": "Exact arithmetic; powers of numbers by any function. unyt itself is modelled by exponents and the values of base units. The result with a factor is a quantity, not a unit as the docstring says."},
 {"property": "C67", "status": "proved", "theorems": ["Verif.C67_supported", "Verif.C67_inverse", "Verif.C67_back", "Verif.C67_defect"], "note": "numpy_type is a defect: re is not imported. The inverse is proved for the module with the import."},
 {"property": "C68", "status": "proved", "theorems": ["Verif.C68_keys_from_coords"], "note": "exact arithmetic; conversion of out of range values to int32 taken as wrapping, numpy leaves it undefined"},
 {"property": "C69", "status": "proved", "theorems": ["Verif.C69_lgadget2_group_tab", "Verif.C69_lgadget2_sub_tab", "Verif.C69_lgadget2_sub_ids", "Verif.C69_lgadget2_snapshot", "Verif.C69_lgadget3_sub_tab", "Verif.C69_lgadget3_sub_ids", "Verif.C69_pgadget3_ids", "Verif.C69_pgadget3_group_tab", "Verif.C69_pgadget3_sub_tab", "Verif.C69_gadget4_sub_tab", "Verif.C69_lgadget2_group_ids_defect"], "note": "Layouts are written down separately from the classes. Numbers of groups etc. are not negative, records shorter than 2^31 bytes, no overflow of numpy integers. Values are the bytes of an element in little endian order."},
 {"property": "C70", "status": "proved", "theorems": ["Verif.C70_table", "Verif.C70_script", "Verif.C70_unsupported", "Verif.C70_invalid"], "note": "Column names not empty."},
 {"property": "C71", "status": "proved", "theorems": ["Verif.C71_read", "Verif.C71_errors"], "note": "Arrays of one name have one type; numpy would promote different types."},
 {"property": "C72", "status": "proved", "theorems": ["Verif.C72_units", "Verif.C72_error"], "note": "As C66."},
 {"property": "C73", "status": "proved", "theorems": ["Verif.C73_groups", "Verif.C73_groups_error", "Verif.C73_groups_tile", "Verif.C73_start_not_checked", "Verif.C73_subhalos", "Verif.C73_subhalos_error", "Verif.C73_end_overflows"], "note": "Arrays have the lengths given by the header (C69). With NumPy 2 the group sizes are assumed not negative."},
 {"property": "C74", "status": "proved", "theorems": ["Verif.C74_ids", "Verif.C74_ids_error", "Verif.C74_unique", "Verif.C74_unique_error"], "note": ""},
 {"property": "C75", "status": "proved", "theorems": ["Verif.C75_snapshot", "Verif.C75_python3"], "note": "Floating point numbers are exact, infinite or NaN. Key of a cell by phKeyScalar (C37)."},
 {"property": "C76", "status": "proved", "theorems": ["Verif.C76_subhalos_lgadget3", "Verif.C76_subhalos_pgadget3", "Verif.C76_subhalos_error", "Verif.C76_groups_pgadget3", "Verif.C76_groups_error", "Verif.C76_bad_mass_accepted"], "note": "Arrays have the lengths given by the header (C69). Exact arithmetic; for C76_groups_pgadget3 masses are finite."},
 {"property": "C77", "status": "proved", "theorems": ["Verif.C77_sort_index", "Verif.C77_sort_index_stops"], "note": "Values form a linear order (no NaN). The ten copies of the subroutine in the file differ in types only. floor(inc/2.2) is exact; indexes do not overflow."},
 {"property": "C78", "status": "proved", "theorems": ["Verif.C78_key", "Verif.C78_key_more_bits", "Verif.C78_key_undefined", "Verif.C78_inverse", "Verif.C78_inverse_undefined"], "note": "Overflow of int and shifts out of range are errors of the model. Compared with the model of virgo/util/peano.py (C37, C41)."},
 {"property": "C79", "status": "proved", "theorems": ["Verif.C79_coords", "Verif.C79_velocities", "Verif.C79_ids", "Verif.C79_truncated", "Verif.C79_hash", "Verif.C79_hash_overflow", "Verif.C79_open_name", "Verif.C79_open_name_blank"], "note": "Layout of the files as in the Python module (C69). Negative numbers of particles and negative table sizes are not modelled; malloc does not fail."},
 {"property": "C80", "status": "proved", "theorems": ["Verif.C80_region", "Verif.C80_empty_region"], "note": "Uses C79 for the C functions. Names of the files are left out; arrays which are not set hold any value; the STOPs for pointers in use are left out."},
 {"property": "C81", "status": "proved", "theorems": ["Verif.C81_sub_desc", "Verif.C81_mxxl_sub_desc", "Verif.C81_tree_aux", "Verif.C81_tree", "Verif.C81_rockstar", "Verif.C81_struct", "Verif.C81_rockstar_halo", "Verif.C81_tree_halo"], "note": "Members of structures are bytes in the order of the machine. Negative numbers of elements are outside the model."},
 {"property": "C82", "status": "proved", "theorems": ["Verif.C82_sanity_check", "Verif.C82_fails_as_intended", "Verif.C82_overflow_defect"], "note": "The defect is proved: halos far outside the array pass if the sum wraps around."},
 {"property": "C83", "status": "proved", "theorems": ["Verif.C83_foreign", "Verif.C83_native_defect"], "note": "The defect is proved for all files which are not empty."},
 {"property": "C84", "status": "proved", "theorems": ["Verif.C84_gadget4", "Verif.C84_gadget4_default", "Verif.C84_pgadget3", "Verif.C84_pgadget3_default", "Verif.C84_gadget4_missing", "Verif.C84_pgadget3_missing", "Verif.C84_gadget4_empty_defect", "Verif.C84_percent_defect"], "note": "All files of a catalogue have the same precision. Scalars, which can not be concatenated, and names which are in no file are outside the model. The defects are proved."},
 {"property": "C85", "status": "proved", "theorems": ["Verif.C85_pgadget3", "Verif.C85_pgadget3_step", "Verif.C85_eagle", "Verif.C85_eagle_defect"], "note": "The order of the lines is that of a dictionary and left out, as are the messages for each snapshot. The defect is proved."},
 {"property": "C86", "status": "proved", "theorems": ["Verif.C86_percent", "Verif.C86_braces", "Verif.C86_both", "Verif.C86_percent_sign_defect"], "note": "Formatting of a single number is a parameter. The defect is proved."},
 {"property": "C87", "status": "proved", "theorems": ["Verif.C87_table", "Verif.C87_values", "Verif.C87_cycle", "Verif.C87_missing"], "note": "Exact masses. The names of the new columns are not used by the files."},
 {"property": "C88", "status": "proved", "theorems": ["Verif.C88_numbers", "Verif.C88_small_groups", "Verif.C88_catalogue", "Verif.C88_hash_table", "Verif.C88_empty_file_defect", "Verif.C88_cubes"], "note": "Reading of variables which fread does not set, and of elements outside of arrays, is an error of the model. The defect is proved."},
 {"property": "C89", "status": "proved", "theorems": ["Verif.C89_coordinates", "Verif.C89_missing_file_defect", "Verif.C89_unknown_id_defect"], "note": "Positions are exact numbers; rounding to float is left out. The defects are proved."},
 {"property": "C90", "status": "proved", "theorems": ["Verif.C90_region", "Verif.C90_duplicates_defect"], "note": "Positions are exact numbers; rounding to float and double is left out. The defect is proved."},
 {"property": "C91", "status": "proved", "theorems": ["Verif.C91_open", "Verif.C91_no_metadata", "Verif.C91_chain", "Verif.C91_path", "Verif.C91_missing", "Verif.C91_unattached", "Verif.C91_items", "Verif.C91_soap", "Verif.C91_swiftsimio", "Verif.C91_mode", "Verif.C91_sequence_defect"], "note": "Files are finite trees without links; data are one-dimensional; attributes of datasets are those of C66. What swiftsimio makes from the metadata is a parameter. The defect is proved."},
 {"property": "C92", "status": "proved", "theorems": ["Verif.C92_bind", "Verif.C92_forward", "Verif.C92_classes", "Verif.C92_mxxl_defect", "Verif.C92_millennium_sub_tab", "Verif.C92_millennium_sub_ids", "Verif.C92_coco_sub_tab", "Verif.C92_millennium2_sub_tab", "Verif.C92_refused"], "note": "The calls of Python are modelled for functions without **kwargs. Files are those of C69. The defect of the class for MXXL is proved."},
 {"property": "C93", "status": "proved", "theorems": ["Verif.C93_names", "Verif.C93_group_tab", "Verif.C93_group_ids", "Verif.C93_sub_ids", "Verif.C93_sub_tab", "Verif.C93_subhalos", "Verif.C93_group_tab_file", "Verif.C93_ids_files", "Verif.C93_sub_tab_file", "Verif.C93_subhalos_file", "Verif.C93_header", "Verif.C93_snapshot", "Verif.C93_associated", "Verif.C93_stars_defect"], "note": "Record lengths are in bytes, record markers have four bytes; counts too large for the integers of Fortran are an error of the model. The defect is proved."},
 {"property": "C94", "status": "proved", "theorems": ["Verif.Hdf5.C94_read_result", "Verif.Hdf5.C94_read_iff", "Verif.Hdf5.C94_places", "Verif.Hdf5.C94_read_nothing", "Verif.Hdf5.C94_empty_defect", "Verif.Hdf5.C94_single_defect", "Verif.Hdf5.C94_no_elements_defect", "Verif.Hdf5.C94_scalar_defect"], "note": "The calls of the HDF5 library (hyperslabs, conversion between integers and strings of equal kind) are modelled from its documentation. The defects are proved."},
 {"property": "C95", "status": "proved", "theorems": ["Verif.Hdf5.C95_write_old", "Verif.Hdf5.C95_write_old_part", "Verif.Hdf5.C95_write_new", "Verif.Hdf5.C95_read_back", "Verif.Hdf5.C95_round_trip", "Verif.Hdf5.C95_extensible_defect", "Verif.Hdf5.C95_empty_defect", "Verif.Hdf5.C95_empty_unreadable_defect", "Verif.Hdf5.C95_initial_size_defect"], "note": "Compression changes nothing but whether a dataset can be stored. The defects are proved."},
 {"property": "C96", "status": "proved", "theorems": ["Verif.Hdf5.C96_cached_read", "Verif.Hdf5.C96_write_effect", "Verif.Hdf5.C96_open", "Verif.Hdf5.C96_create", "Verif.Hdf5.C96_close", "Verif.Hdf5.C96_read_only", "Verif.Hdf5.C96_stale_defect", "Verif.Hdf5.C96_leading_blank_defect"], "note": "By an invariant over all sequences of calls. The HDF5 library is modelled from its documentation. The defects are proved."},
 {"property": "C97", "status": "proved", "theorems": ["Verif.Hdf5.C97_create_group", "Verif.Hdf5.C97_dataset_groups", "Verif.Hdf5.C97_write_attribute", "Verif.Hdf5.C97_read_attribute", "Verif.Hdf5.C97_attribute_round_trip", "Verif.Hdf5.C97_info", "Verif.Hdf5.C97_nesting_defect", "Verif.Hdf5.C97_double_slash_defect", "Verif.Hdf5.C97_long_name_defect", "Verif.Hdf5.C97_root_defect", "Verif.Hdf5.C97_small_array_defect", "Verif.Hdf5.C97_mixed_defect"], "note": "Parts of paths do not end in a blank and are not a dot. Lists of members are not modelled. The defects are proved."},
 {"property": "C98", "status": "proved", "theorems": ["Verif.SnapshotPrograms.C98_fortran", "Verif.SnapshotPrograms.C98_c", "Verif.SnapshotPrograms.C98_idl", "Verif.SnapshotPrograms.C98_python", "Verif.SnapshotPrograms.C98_truncated", "Verif.SnapshotPrograms.C98_wrong_order", "Verif.SnapshotPrograms.C98_empty_defect", "Verif.SnapshotPrograms.C98_id_defect"], "note": "How floating point numbers are printed is left out: lines have their bytes. The defects are proved."},
 {"property": "C99", "status": "proved", "theorems": ["Verif.SnapshotPrograms.C99_fortran", "Verif.SnapshotPrograms.C99_c", "Verif.SnapshotPrograms.C99_large_defect", "Verif.SnapshotPrograms.C99_empty_defect", "Verif.SnapshotPrograms.C99_id_defect"], "note": "Composed from C94, C96 and C97. How floating point numbers are printed is left out. The defects are proved."}
]}
