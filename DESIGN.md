# Formal model of VirgoDC in Lean 4

This directory holds a Lean 4 model of the Python package in `/repo/python/virgo`
(plus the scripts in `/repo/consistency_check` and the C and Fortran readers named below) and machine checked
proofs of the properties listed in `properties.jsonl`. `MANIFEST.json` says which
theorem settles which property.

## Layout

* `lean/Verif/Lib/`   list, order and arithmetic lemmas; models of the numpy and MPI
  primitives the code calls (`searchsorted`, stable `argsort`, `cumsum`, `repeat`, slices,
  `Alltoall`, ...).
* `lean/Verif/Model/` the models: one definition per Python function, each with a comment
  giving file and lines.
* `lean/Verif/Spec/`  small specifications, which do not mention the models.
* `lean/Verif/Proofs/` helper lemmas.
* `lean/Verif/Props/` the property theorems, and beside each one a concrete instance of its
  hypotheses.

## How the code is modelled

**Arrays** are lists (first dimension; trailing dimensions are part of the element type).
Elements compared by the code come from a linear order, so NaN is out of the model (except in C135).
Python integers and numpy index arithmetic are `Nat` or `Int` (no 64 bit overflow of
*indexes*); fixed width integers are modelled as bit vectors or bytes where the code depends on
width (byte swapping, binary formats).

**Floating point** arithmetic is replaced by exact arithmetic (rationals, or an arbitrary
commutative monoid/ordered group). This concerns the weights of `weighted_median` (rounding is in C136), sums in
`sum_ranges`, tree masses and unit conversions. C137, C141 (cells and keys of positions) and C142 (`reduce_elements`, `parallel_bincount`) have rounded operations.

**MPI programs.** A distributed array on `P` ranks is a function `Nat -> List a`, used at
ranks `< P`. The code is SPMD: each rank runs the same statements. Local statements are applied
at each rank, and a collective (`allgather`, `allreduce`, `scan`, `Alltoall`, `bcast`)
is a function of the values contributed by all ranks. That the MPI library implements these
collectives is trusted. Where trip counts of loops containing collectives depend on
data, the model carries each rank's own copy of the loop condition and a theorem says all ranks
agree (otherwise the real program would hang).
`my_alltoallv` and `sendrecv` are built by the project itself out of point to point messages: these are
modelled at message level as a transition system in which any rank may move at any time, and
the higher level functions use the input/output specification proved for it.

**Exceptions** are values (`Except`), including Python level failures of numpy calls where the
code can reach them. A Python `assert` is a check that produces an error value.

**Unstable `np.argsort`/unordered iteration** is modelled by an arbitrary sorting permutation as
parameter; theorems quantify over it.

## Trusted base

* The Lean 4.33.0 kernel, and the axioms `propext`, `Classical.choice`, `Quot.sound`
  (the only ones any theorem depends on; no axioms are declared, no `sorry`, `native_decide`
  or `bv_decide`).
* That the definitions in `lean/Verif/Model` describe the Python text (they cite file and lines), and that
  the primitives in `lean/Verif/Lib` describe numpy, MPI, Python and the operating system.
* Not modelled at all: h5py/HDF5 internals, unyt and swiftsimio internals, the
  Fortran and C examples (except those named below), plotting/scripts, numpy dtype promotion, memory exhaustion, I/O errors (except where a
  property is about them).

## Plan per property

| Id | Model and proof idea |
|----|----------------------|
| C01, C02 | `parallel_sort` as composition of local stable argsort, `find_splitting_points`, all-to-all, local stable argsort. Tag every element with its global position; show destination ranks receive consecutive slices of the lexicographic (value, position) order; uniqueness of strictly sorted permutations gives equality with the stable sort of the concatenation. With the bound of C03, 3 (log2 N + 1) passes are enough (`C01_passes`, `C11_passes`, `C13_passes`). |
| C03 | loop as iteration over per-rank `(imin, imax, done)`; invariant: every instance of the target value lies in the active ranges; measure: total active length falls because the weighted median is an active element, and by a quarter in each pass, so that 3 (log2 N + 1) passes are enough. |
| C04 | exact rational weights, arbitrary sorting permutation; first index where the running weight reaches one half. |
| C05, C06, C07 | transition systems with rendezvous / FIFO channels, arbitrary scheduler; invariant, progress and termination measure. |
| C08 | interval arithmetic on prefix sums. |
| C09, C10, C18 | routing by `searchsorted` on sorted indexes; slices of sorted index list; scatter back. C18: sum of the counts sent is short by the number of negative indexes, so all slots are shifted by it. |
| C11, C12 | uses C02; per-task value ranges, left search. |
| C13, C14, C15 | per-rank run-length of a globally sorted list; boundary fix-up. |
| C16, C17 | multiset of updates routed to the owner; fold of commutative op. |
| C19, C20 | composition of C09, C11, C14. |
| C21, C22 | monotone pointer walk; prefix/suffix sets of groups; later group wins. Negation for unsorted offsets by witness. |
| C23, C24, C25 | decision logic over per-rank values. |
| C26, C27 | arithmetic of `assign_files`; C26 balance fails (witness). |
| C28 - C33 | file contents as lists; splitting arithmetic; chunk loops. C33 is false (witness: non-termination). |
| C34 | arbitrary sorting permutation, binary search. |
| C35, C36 | run-length mask. |
| C37 - C41 | automaton over 24 rotations x 2 senses; whole-table kernel check lifted by induction over bits. |
| C42 | character level parser of the format mini-language; fails for escapes (witness). |
| C43 | direct. |
| C44 - C49, C51 | BinaryFile as state machine over operations; C48 fails for `toggle_byteswap` (witness). |
| C50 | cache as state machine over accesses, closes, collections. |
| C52 | 32 bit byte swap over all values by arithmetic. |
| C53 | layout arithmetic against an independent description of the format. |
| C54, C55, C56 | loops over files against windows of the concatenation, cache invariant over call histories; C55 fails at a file boundary. |
| C57 - C59 | iterative walk against recursive preorder of the tree. |
| C60 - C62 | invariants of the loops in time order; best progenitor described without any order of halos. |
| C63 | cache as state machine over calls. |
| C64, C65 | transition system with arbitrary scheduler and crash points. |
| C66 | exact rational model of units. |
| C69 | one interpreter for all classes; explicit layouts; invariant over declarations. |
| C67 | finite table; `numpy_type` calls `re` which is never imported. |
| C70, C71 | table as rows of fields, any initial memory; invariant over the columns set; dictionaries as lists. |
| C72 | as C66. |
| C73, C74, C76 | each `if ...: raise` as a condition on lists; equivalence with conditions on the entries; `np.repeat` by prefix sums. |
| C75 | invariant of the loop over cells; C37 and C41 for the cell of a key; distance in a periodic box. |
| C77 | heap invariant with one exception; hole invariant of insertion; the last pass of the shell sort has increment one. |
| C78 | every intermediate value of the C code is bounded; the loops are those of the Python code; the static tables are an invariant of sequences of calls. |
| C79 | bytes of the file by the layout of C69; each `fseek` goes to the start of a row; each `int` is bounded by the size of the file. |
| C80 | tables after `m` files; cells numbered through all files; invariant of the loop: the particles of the cells before are in place. |
| C81 | interpreter of C69 without detection of the byte order; layout of C structures against offsets of NumPy types. |
| C82 | `int64` sums which wrap around. |
| C83 | steps of C69; the file read in the wrong order is a file with reversed contents, whose product of sizes is divisible by 2^32. |
| C84 | C43 (`read_multi`) with C69 for each file; arrays which a file lacks are not found in it (C69, names outside the layout). |
| C85 | Invariant of the loop: counts are numbers of items checked so far; the cache of redshift labels only has the labels of the only matching directory. |
| C86 | Induction on the pieces of the name for both kinds of formatting. Defect: a result of `%` is never the format string again if that has a percent sign, by descent: it would be some text followed by what is left to format. |
| C87 | Composition of C71, C61, C57-C59 and C70; descendants at later times exclude cycles; the numbers fit into the type of `descendantIndex`. |
| C88 | Lemmas which read one field or record at a position of a file; induction on the files for the loops, with the arrays as overlays of complete pieces; any sorted permutation for `qsort`. Cells are those of C79. |
| C89 | Invariants of the loops over IDs (flags and counts), over flagged cells and over the two sorted arrays (all numbers before the current one are smaller than the ID looked for); bounds of periodic differences. |
| C90 | Keys only depend on coordinates modulo the number of cells along a side, so the cells of the loops are a product of three intervals modulo this number; injectivity of the key for intervals which are short enough; floor of sums for the cells of particles in the sphere. |
| C91 | Walking a path in two parts is walking it at once, and splitting at slashes distributes over concatenation; induction on the keys for the attributes of the wrappers; the values in CGS units come from C66 and C72 with the base units of the registry. |
| C92 | Binding of arguments refines a relation between calls and values; a class which forwards every parameter by the same name makes a call which the base class accepts, with the same values; the files come from C69. |
| C93 | Formatted output of numbers is `threeDigits` and `decimal` for small numbers; each read of a record is a slice of the file, so a reader returns values exactly if the file begins with their bytes; layouts of C47 begin with these bytes. |
| C94 | The selection in the dataset and that in memory are lists of offsets; both are the column-major offsets of the indexes of the part, in the same order, after dimensions with one element are dropped. |
| C95 | Writing is a scatter into the (extended) dataset at the same offsets; extension is a map of indexes. Reading back composes C94 with the result of writing. |
| C96 | Invariant over sequences of calls: the dataset left open is the one which its file now has under the remembered name, and some handle of this file is open. A cache hit then finds the same address as a new search. |
| C97 | Induction along the path for groups, also those of new datasets; the table of attributes is a list with unique owner and name. |
| C98 | Each record is the array with markers; a file cut anywhere is the complete records before the cut and a part of the next one. Python by C53. |
| C99 | Composition of C94 (whole datasets), C96 (sequences of calls) and C97 (attributes); the C program directly. |
| C100 | Instance of the general theorem on plain formats (C50-C53) for each number of columns; fields of the structure by induction over the list. |
| C101 | Lemma on `readu` of a list of variables against rows of a layout; induction over files (positions), over trees (halos), and invariant of the `repeat` loop that the planes of the files so far are filled (potential). |
| C102 | Refinement: the flat exchange of `rows * columns` elements is the exchange of rows of C08 and C09 (C05_rows), stored through a view or lost in a copy, according to the strides. |
| C103 | `write_hdf5` of a BinaryGroup: recursion over the tree; the HDF5 file is described by what is at each path. Two defects. |
| C104 | `MultiFile.read` in full: several datasets, group, attributes, file numbers, unpack. Dicts and the exchange of missing arrays and attributes are modelled. Three defects. |
| C105 | `MultiFile.write` in full: several datasets, group, attributes, modes; the file system is a map from names to contents. Copies with C104. |
| C106 | `compress_dcpl`: property lists as records, and what HDF5 accepts as a predicate. Four defects. |
| C107 | `MultiFile.__init__` on all ranks, with the exception on the first rank before bcast. Three defects. |
| C108 | `readfofgroups`, `readgroupsexample`: flagging of cells, `readregion` (C80), sorting, matching. The result is stated by IDs only. One defect. |
| C109 | `readregionexample`: number of cells, keys of the cells of the box, `readregion`, removal of particles outside. Two defects. |
| C110 | `readsubhalosexample`, `readfileexample`. |
| C111 | `plot_fof_group.py`: cells of a group, `read_cells` (C56), `match`, check of IDs. Sound for all files, complete for good ones. |
| C112 | `check_units.py` of both simulations: `assign_ranges`, `match`, sorting by subhalo, wrapping, `sum_ranges`, angular momentum; the result is stated by members of subhalos only. Two defects. |
| C113 | `write_wrapped_text`, `hdf5_abort`: length, indentation, letters and words of lines; termination. One defect. |
| C114 | `hdf5_list_datasets`, `hdf5_list_groups`, `hdf5_list_attributes`: number and names, for any order of objects. One defect. |
| C115 | `show_massfunc.pro`, `get_groupcount_below_minlength.pro` on top of the C library (C88): points on the cumulative mass function, totals. One defect. |
| C116 | `show_profile.pro`, `plot_profile_vmax.pro`: shrinking spheres end and give the centre; points of the curve of circular velocity. |
| C117 | `plot_profile_dens.pro`: R200, M200 and the histogram. One defect. |
| C118 | `compute_rvmax.py`: Vmax and RVmax for any order of equal distances. |
| C119 | `PlotSpectrum.pro`: bands of a power spectrum, selection of points, error bars, linear spectrum. One defect. |
| C120 | `cosma_file_path`, `open_file`, `open_snap_file`, `open_subtab_file`: names of files, and agreement with the Fortran programs. |
| C121 | `test_parallel_sort.py`: checks of `run_parallel_sort`, `run_large_parallel_sort`, `test_repartition_*`, `test_unique` for all arrays; which results pass. Four weaknesses. |
| C122 | `test_parallel_sort.py`: `run_parallel_bincount`, `make_distributed_array`, `run_parallel_match`, `run_sendrecv_test` for all arrays and random numbers. |
| C123 | `test_util.py`: the test of `group_index_from_length_and_offset` for all random numbers; which results pass. One defect. |
| C124 | `*_preprocessor.inc` of the Fortran wrapper: complete tables of routines for all types and ranks. One defect (integers with seven dimensions). |
| C125 | `test_parallel_hdf5.py`: all tests for all arrays and sets of files; which results pass; inconsistent types always raise `RuntimeError`. One weakness. |
| C126 | `test_extend.f90`: sequences of writes to parts of a dataset; an array in pieces gives the array, blocks and rows for all sizes |
| C127 | `show_group.pro` and `getcubes.pro` on top of the C library: which groups are shown with which particles; numbers of particles in parts of the box. Two defects. |
| C128 | `read_sub_tree.pro` and `read_group_m200.pro`: what is printed for a row of a table which is right. Two defects. |
| C129 | `BinaryGroup.__iter__`, `__len__`, `BinaryDataset.__len__`, `__iter__`, and `close()`: members and rows are complete; exactly which files are open after `close()`. One defect. |
| C130 | `mpi_errchk` as a transition system over all schedules: no hang if a rank raises; without it there is one; limit: `SystemExit`. |
| C131 | `read_subhalo_catalogue.py`: C92 for each file, and the order of lines. |
| C132 | Scripts for Millennium-WMAP7 snapshots in Python and IDL: values, order of indices, agreement with C99. |
| C133 | The Fortran wrapper: datasets and attributes are kept by all other calls, so that they are read as they were written. |
| C134 | `test_write.f90` and `test_read.f90` as programs: reading finds what was written, for all values. |
| C135 | `parallel_sort` with the comparison `!=` as a parameter: for at most as many NaN as fit on the last rank the counts are those of C01; otherwise no NaN is sent to any other rank, so that the last one receives too much. |
| C136 | the median with rounded operations: while the total is below one half the part before the next element is at most one half after rounding (`Nearest.before`), and the total of all weights is at least 1-(2n+1)/2^53, so that some element qualifies. The loop then does as with exact weights. For the logarithmic bound (`Proofs/RoundedLog`) the rounded sums are within a factor (1±2^-53)^(2n) of the exact ones, so that either side of the median has at most 13/25 of the weight and each pass leaves at most 23/30 of the elements. |
| C137 | floating point numbers with p bits: a number below another one is below it by one part in 2^p at least (`IsFloat.gap`), so the quotient of a position in the box stays below 2^bits after rounding; whole numbers stay in place, so rounding never goes below the cell. |
| C138 | the exchange of `parallel_match` only uses the minimum of the first task with data and the maxima of all of them (`exchange_congr`), so it is the one of C11 if the first task has no NaN; otherwise it is the one of arrays which contain nothing but NaN. Sorting is C135. |
| C139 | values of integers: sum of the bytes times powers of 256; two's complement is the number in the signed range which is congruent to it. |
| C140 | comparisons between ranks are the same as for elements equal to themselves as long as one side isn't NaN; after the sort all NaN are on the last rank, and with sorted data a rank with NaN has them at the end of its list of unique values (`local_of_mem`). |
| C141 | the error of rounding is less than one part in 2^p (`error_lt`), and a number below a boundary which is a floating point number is below it by at least that much (`IsFloat.gap`), so the rounded quotient stays below the whole number; multiples of a number of few bits are floating point numbers. The rest is C56 and C137. |
| C142 | the proof of C16 without reordering of updates (`reduceElements_order`); each rank's block of its sorted updates is a permutation of its updates. Errors: induction over the additions with bounds for the errors of the summands (`fold_error`), and over trees of additions (`tree_error`). `exists_nearestTo`: the nearest multiple of the spacing is a nearest number. |
| C143 | the radius is below the next multiple of the cell size by one part in 2^48 at least (`IsFloat.gap`), so that two roundings do not reach it (`sphere_cells`); centres as in C141. Then as for C90; the errors of the three roundings of a relative position add up (`relative_near`). |
| C144 | errors of the sum by `fold_error` with (1 + e)^n <= 1 + 2 n e (`pow_bound`), of the relative positions as in C143 (`offset_near`) and of the wrapped centre (`wrap_near`) are added; numbers just below the size of the box are rounded to it (`NearestTo.up`). |

## What the mutation log shows

`seeded/LOG.jsonl` records edits of the model and the first declarations which no longer check. In most
entries this is a lemma in `lean/Verif/Proofs`, and the property theorems built on it are listed as "not
reached". Such an entry shows that the proof no longer goes through. It does not by itself show that the
statement of the property has become false. Entries in which a property theorem or an example beside it
fails are the stronger evidence. Later entries (with the field `examples_failed_beyond_the_lemmas`) come from a second
build in the scratch copy in which the proofs of the lemmas that failed were left out, so that the examples beside the property theorems were reached.

## Where the code does not do what it says

Properties are stated so that they hold of the code. Where the documentation or the natural reading promises more,
the difference is shown by a theorem about a concrete case:

| Theorem | Behaviour |
|---|---|
| `C18_negative_stale`, `C18_negative_index_counterexample` | `fetch_elements` does not reject negative indexes: it returns elements which were not asked for and leaves part of the result unset. |
| `C21_unsorted_wrong` | Group membership is wrong if the offsets of the groups are not ascending. |
| `C25_help_on_root_hangs` | If only rank 0 finds `--help`, it exits and the others wait for ever. |
| `C27_no_files` | `MultiFile` with no files raises ZeroDivisionError. |
| `C28_byte_order_depends_on_ranks` | The byte order of what `MultiFile.read` returns depends on the number of ranks. |
| `C33_collective_write_diverges`, `C33_collective_read_unread` | If one row exceeds the buffer size, writing does not terminate and reading returns data which was never read. |
| `C38_overflow` | Peano-Hilbert keys overflow for 22 to 31 bits, which are accepted. |
| `C42_escapes_lost`, `C42_conversion_lost` | Doubled braces and conversions are lost when a format string is filled in two steps. |
| `C43_nowhere`, `C43_duplicate_name` | `read_multi` raises if a dataset is in no file or a name is repeated. |
| `C46_attribute_slash_defect` | The attribute `d//x` of a dataset `d` has the name `/x`: slashes are stripped from the names of groups only. |
| `C48_toggle_defect` | `toggle_byteswap` leaves existing blocks in the old order once an order was set explicitly. |
| `C48_dataset_attribute_defect` | Attributes of a dataset declared after `set_endian` are read in native order. |
| `C51_default_mode_defect` | The default mode `wb-` of `write_binary` is not accepted by `open`. |
| `C69_lgadget2_group_ids_defect` | `GroupIDsFile` of L-Gadget2 asks for a dataset it never declared: every file gives KeyError. |
| `C54_duplicate_names` | `read_particle_range` doubles an array whose name is given twice. |
| `C55_lost` | `read_fof_group` (Gadget-4) leaves out the last particle of a group if it is the first one of a file and no later file is needed. With subhalos this can end in ValueError. |
| `C55_no_subhalos` | A Gadget-4 group ordered snapshot without subhalos (or without groups) cannot be opened. |
| `C56_region_defect` | `read_region` gives floating point sizes to `np.indices`; this raises TypeError since NumPy 1.12. |
| `C63_missing` | `eagle_filename` returns the path of a missing file instead of raising once another file of the output was found. |
| `C65_refused` | The hashing tool cannot be resumed if it was stopped before it stored the results of a directory, even if hashes had been computed. |
| `C67_defect` | `numpy_type` raises NameError: `re` is not imported. |
| `C73_start_not_checked`, `C73_end_overflows` | Tables are accepted whose first group does not start at the first particle, or whose ranges overflow 32 bits. |
| `C75_python3` | The check of Millennium snapshots always fails in Python 3 (`/=` gives a floating point number of bits). |
| `C76_bad_mass_accepted` | Groups whose mass is negative or NaN pass the mass test. |
| `C79_hash_overflow` | `readhash` of the Fortran examples is undefined for files with 67108855 particles or more (`int` offsets). |
| `C79_open_name_blank` | `open_gadget` opens another file if the path has a blank. |
| `C80_empty_region` | `readregion` calls `fclose` twice on the same file if the region has no particles. |
| `C82_overflow_defect` | The sanity check of Rockstar halos passes halos whose `p_start + num_p` overflows. |
| `C83_native_defect` | `FieldFile` of Millennium-XXL expects a first record of 8 bytes, but it has 20: files in native byte order are always refused. |
| `C84_gadget4_empty_defect` | `GroupCatalogue` of Gadget-4 raises ValueError for catalogues without subhalos or without groups, where those of P-Gadget3 gives empty arrays. |
| `C84_percent_defect` | `GroupCatalogue` looks in another directory if the name of the directory has `%%`. |
| `C85_eagle_defect` | check_eagle_file_presence.py stops without a summary if the header of one of the first files lacks the attribute with the number of files. |
| `C86_percent_sign_defect` | `substitute_file_nr` fails for names with a percent sign and fields in the style of `str.format`, whether or not the sign is doubled. |
| `C88_empty_file_defect` | `get_hash_table` of the IDL library fails ("bummer") if the first or the last file of a snapshot has no cells, because then the number of its last or first cell is outside of the table. |
| `C89_missing_file_defect` | `get_group_coordinates` marks cells in the array of files of its caller; if a file is missing it returns without undoing this, so that all later calls open wrong files. |
| `C89_unknown_id_defect` | An ID of a group which is larger than all IDs in its cells makes `get_group_coordinates` read after the end of `id_read`. |
| `C90_duplicates_defect` | `get_spherical_region_count` and `..._coordinates` visit cells more than once if the cube around the sphere is larger than the box in cells, so that particles are counted and returned several times; with two cells along a side this is always so. |
| `C91_sequence_defect` | `SwiftDataset` inherits `__contains__` from `Mapping` and `__iter__` from h5py: `i in dataset` is true for every index and an IndexError for other integers, whatever the values are, and iteration gives numbers without units. |
| `C92_mxxl_defect` | `virgo.sims.mxxl.SubTabFile` passes `SO_BAR_INFO` and `WRITE_SUB_IN_SNAP_FORMAT` to `subfind_lgadget3.SubTabFile`, which has no such parameters: every call is a TypeError. |
| `C93_stars_defect` | `readgroups.f90` and `readfile.f90` write file numbers with `i3.3`: numbers of four digits (and such numbers of outputs) become `***`, so that all of them mean the same file. |
| `C94_empty_defect` | `read_dataset.inc`: an empty dataset with one dimension cannot be read (its dimension is dropped as if it had one element, and then the sizes do not fit). |
| `C94_single_defect` | `read_dataset.inc`: a dataset with one element in some dimension cannot be read into an array with more elements in this dimension, although the README allows any larger array. |
| `C94_no_elements_defect` | `read_dataset.inc`: an array without elements passes the checks for a single element and memory outside of it is written. |
| `C94_scalar_defect` | `read_dataset.inc`: `start` and `count` cannot be given for scalars. |
| `C95_extensible_defect` | `write_dataset.inc`: only `present(extensible)` is checked, so `extensible=.false.` makes an extensible dataset. |
| `C95_empty_defect` | `write_dataset.inc`: empty arrays cannot be written compressed or extensible, because chunks have at least one element. |
| `C95_empty_unreadable_defect` | `write_dataset.inc`, `read_dataset.inc`: an empty array with one dimension is written, but can never be read. |
| `C95_initial_size_defect` | `write_dataset.inc`: `initial_size` larger than the array ends the program if `start` and `count` are not given. |
| `C96_stale_defect` | `read_dataset.inc`, `write_dataset.inc`: after a dataset was read and replaced (`overwrite=.true.`), reading it again gives the old data, because the unlinked dataset is still open. |
| `C96_leading_blank_defect` | `read_dataset.inc`: names are compared with `adjustl`, but for HDF5 blanks at the beginning are part of a name. |
| `C97_nesting_defect` | `hdf5_create_group`: `id_chain` has ten elements, and more groups are written after its end. |
| `C97_double_slash_defect` | `hdf5_create_group`: two slashes, which are one in HDF5, end the program. |
| `C97_long_name_defect` | `hdf5_create_group`: names are cut after 256 characters without a message. |
| `C97_root_defect` | `read_attribute.inc`, `write_attribute.inc`: `/name` ends the program, attributes of the root group need `//name`. |
| `C97_small_array_defect` | `read_attribute.inc`: the size of the array is not checked, and memory after it is written. |
| `C97_mixed_defect` | `read_attribute.inc`: larger arrays with several dimensions get the elements in the wrong places (noted in the README). |
| `C98_empty_defect` | `read_m2_snapshot_file.f90`, `read_mill2_snapshot.pro`: files without particles have no records after the header, and the programs fail. |
| `C98_id_defect` | `read_m2_snapshot_file.f90`: IDs with more than 16 digits are printed as stars (`i16`). |
| `C99_large_defect` | `read_mr7_snapshot_file.c`: `3*NumPart_ThisFile[1]` is an unsigned int and `3*i+2` an int; with more than 715827882 particles memory outside of arrays is used. |
| `C99_empty_defect` | `read_mr7_snapshot_file.f90`: ends with an error for files without particles, since the wrapper cannot read empty datasets (C94). |
| `C99_id_defect` | `read_mr7_snapshot_file.f90`: IDs with more than 16 digits are printed as stars; unsigned ones of 2^63 and more have been changed before. |
| `C100_numpy_defect` | `velociraptor.py` line 25 uses `np.int`, which was removed in NumPy 1.24: `AttributeError` for every file. |
| `C101_empty_defect`, `C101_trees_defect` | `lonarr(0)` is an error in IDL, so files without groups or subhalos stop `ReadSubHalos.pro`, files without trees `ReadTree.pro`; `ReadSingle.pro` and `Read_TreeAux.pro` have the same (the `if` in `C101_single` and `C101_treeaux`). |
| `C101_groups_defect` | `ReadGroups.pro` lines 25-26 use `NumLocal`, which is not defined: the program stops for every file. |
| `C101_multi_defect` | `ReadMulti_xyz.pro` takes the number of particles from 32 bits of `npartall`: from 2^31 particles on (Millennium has 10^10) it stops. |
| `C101_multi_name_defect` | `ReadMulti_xyz.pro` line 3 has `SnapBase="snap_millennium/"`: the names have a `/` before `_008`. |
| `C101_potential_defect` | `ReadPotential.pro` stops if the first file has no planes of the grid. |
| `C101_blank_defect` | `strcompress(.., /remove_all)` of the whole name: directories with a blank cannot be used. |
| `C102_columns_defect`, `C102_fetch_defect`, `C102_result_defect` | `parallel_sort.py` lines 247-250 and 333-340: `empty_like` keeps column order, then `reshape((-1,))` is a copy, and what is received is lost: the result is uninitialised memory. |
| `C102_step_defect`, `C102_column_step_defect` | `parallel_sort.py` line 248: `reshape((-1,))` of an array with a step is a view which is not contiguous, so that mpi4py raises `ValueError`. |
| `C103_file_attributes_defect` | `write_hdf5` does not write attributes of the file itself. |
| `C103_empty_defect` | With compression (the default) `write_hdf5` raises for a dataset in which a dimension is zero: the chunk size is zero. |
| `C104_string_defect` | `return_file_nr` given as a string raises KeyError if there are at least as many files as ranks. |
| `C104_unpack_defect` | `unpack=True` with file numbers of only some of the datasets raises KeyError. |
| `C104_extra_names_defect` | Names in `return_file_nr` which are not read are keys with value None in independent mode, and absent in collective mode. |
| `C106_wide_rows_defect` | `compress_dcpl` with the default chunk size: many rows of 512 bytes or more give chunks of 4 GiB, which HDF5 refuses. |
| `C106_empty_defect` | `compress_dcpl` returns None for datasets without elements: the property list of the caller is not used. |
| `C106_chunks_defect` | Chunks of the caller which are larger than the dataset of a file are kept, and HDF5 refuses them. |
| `C106_zero_defect` | `chunk=0` gives chunks of zero rows, which HDF5 refuses. |
| `C107_hang_defect` | `MultiFile(...)`: if the first file is missing, or nothing says where the number of files is, rank 0 raises and the other ranks wait in bcast. |
| `C107_ignored_defect` | `file_idx` is ignored if `filenames` is a sequence. |
| `C107_no_files_defect` | An empty sequence of names gives ZeroDivisionError. |
| `C108_no_groups_defect` | `readfofgroups` for a file without groups: `readregion` closes a file which is not open. |
| `C109_empty_defect` | `readregionexample`: cells without particles give a failure instead of an empty file. |
| `C109_one_cell_defect` | `readregionexample` with one cell: `peano_hilbert_key` shifts by −1. |
| `C112_missing_defect` | `check_units.py`: an ID which is not in the snapshot gives index −1, so the last particle of the snapshot is used. |
| `C112_bits_defect` | `examples/millennium/python/check_units.py`: `(v << 34) >> 34` keeps 30 bits of the ID, not 34 as in `plot_fof_group.py`. |
| `C113_narrow_defect` | `write_wrapped_text`: with `n ≤ indent + 2` the loop never ends unless the text fits on one line. |
| `C114_long_defect` | `hdf5_list_datasets`: names longer than elements of the array are cut, so the dataset can not be opened with what is returned. |
| `C115_small_defect` | `get_groupcount_below_minlength.pro`: `repeat … until i eq 0` starts at `GroupMinSize-2` and misses 0 if this is not positive; the program stops with an index out of range. |
| `C117_density_defect` | `plot_profile_dens.pro`: `countarr = lindgen(BINS)` instead of an array of zeros, so that bin b has b particles too many. |
| `C119_bins_defect` | `PlotSpectrum.pro`: `Bins` is read again for the second table and then used for both loops, so that rows of a longer first table are lost (and the last row of a shorter one is repeated). |
| `C121_large_defect` | `run_large_parallel_sort` fails with more than one rank if a rank has no elements (`np.amin` of an empty array), although `np.random.randint` may give 0. |
| `C121_repartition_defect` | The tests of `repartition` compare the concatenation only; a function which moves nothing passes. |
| `C121_unique_counts_defect` | `test_unique` compares the values twice and never the counts. |
| `C121_unique_broadcast_defect` | `np.all(a == b)` is true for an empty array and an array of length one, so that `test_unique` accepts an empty result for data with one distinct value. |
| `C123_few_ids_defect` | `np.bincount(rank_for_id, minlength=total_nr_ids)` should have the number of ranks; with fewer IDs than ranks the test ends with an IndexError. |
| `C124_seven_defect`, `C124_seven_lost_defect`, `C124_seven_unreadable_defect` | `NDIMS` is 2 in `write_7d_integer4_array` and `write_7d_integer8_array`: only the first plane of an integer array with seven dimensions is written, without a message. |
| `C125_one_element_defect`, `C125_lost_defect` | `np.all(arr==arr_check)` repeats an array of one element: with one element in total the tests pass although it was lost. |
| `C127_few_groups_defect`, `C127_files_defect` | `show_group.pro` stops if there are less than six groups; `getcubes.pro` has room for 512 files only and the library writes behind the end of the array. |
| `C128_sub_tree_defect`, `C128_no_subhalos_defect` | `read_sub_tree.pro` line 63 uses the number of the row in the whole table (`isub`) as the number of the subhalo in its file, instead of `subid[isub]`; `read_group_m200.pro` stops for a group without subhalos at the end of a file. |
| `C129_close_defect` | `BinaryDataset.close()` does not close the attributes of the dataset, and blocks made by `read_and_skip` are in no group: if nothing else was read the file stays open after `close()`. |
| `C130_exit_defect` | `mpi_errchk` does not catch `SystemExit`: `sys.exit()` on some ranks leaves the others waiting. |
| `C135_nan` | `arr[...] != val` is true for NaN, so that `parallel_sort` sends all NaN to the last rank with data and fails if they are more than its elements. |
| `C137_edge_defect` | `peano_hilbert_keys_from_coords` converts the size of cells to the type of the positions. For `float32` positions and a box whose size isn't a `float32` number (67.77), a position just below the size of the box gets the key of the cell at the other side. |
| `C138_one_task_defect` | `parallel_match` takes the smallest element of `arr2` with `np.amin`, which is NaN if there is a NaN. If only one task has elements of `arr2` (or the first one has NaN with `arr2_sorted=True`), nothing is found, without a message. |
| `C140_sorted_defect` | `parallel_unique` with `arr_sorted=True` returns NaN once for each rank which has some, and counts are those of each rank. |
| `C144_wrap_defect`, `C144_box_defect` | `fof_periodic_wrap` returns a number less than `BoxSize`, but after rounding the centre of a group at the side of the box can be equal to `BoxSize`. |
| `C49_explicit_order_defect` | Detection of the byte order accepts a record whose contents are then read in the wrong order. |

## The hashing tool

`consistency_check/hash/hash_dirs_mpi.py` is a Python 2 script. The protocol between the ranks is a transition system
(`Model/HashDirs.lean`); a message is one object, `comm.send` may or may not wait for the receiver, `Iprobe` may miss a message any number
of times. Not modelled: `hash_file` itself (any function of the path, `none` where it raises IOError), `fnmatch` (any function), normalisation of paths, extended
attributes, header lines of output files, exceptions other than those named. Uncommitted changes of the database are lost when a run is stopped. The file tree does not change
between runs. The database file itself is not skipped by the tool: if it is in the tree this assumption does not hold.

## Parts of read_binary.py which are modelled

Modelled: `big_or_little`, `need_byteswap`, `_split_path`, `BinaryGroup.__getitem__` and `_add_block`,
`BinaryDataset.__getitem__`, and all methods of `BinaryFile` except `__repr__` and the context manager.
The value of an element is its bytes in little endian order. Only types whose byte swapped form is the reversed
bytes, or which have no byte order, are covered: not complex or structured types. Indexing is given by
positions in the flattened array. Not modelled: `__array__`, `__iter__`.

The cache of open files (`MemoryMappedFile`, `_mmap_file`, `close`) is a state machine whose events are making, reading,
closing and dropping datasets and the deallocation of a map to which no dataset refers. Files on disk do not change. Not modelled: an
exception traceback which keeps a map or an array alive.

## Merger trees (database/index_trees.py)

`depth_first_index` is modelled with its linked lists, the stack walk (as a machine with the places of the loop as program counter; a
number of steps is allowed and the theorems speak of what is returned when enough are) and the second loop. Array indexes with -1
for "none" are `Option Nat`. All answers of the unstable `argsort` are covered. Overflow of the index type, and unsigned index types, are not.

`find_progenitor_tree_mass`, `find_progenitor_branch_mass_delucia` and `find_main_progenitor` take the result of `np.lexsort` as an argument
which is constrained to be sorted by (snapshot, minus index). Masses are exact numbers: elements of a commutative monoid, of an ordered
one, or of an ordered field. The unused arrays `mdesc` (in the first function) and `min_prog_snap` are left out. Division by a branch mass of zero
(infinity or NaN in the code, with a warning) makes the comparison false.

## Group catalogues and snapshots (formats/)

The constructors of the classes for binary files are written as data (`Format`: declarations of datasets whose sizes are
constants or values of datasets declared before, records, conditions) which is run by one interpreter, `Format.parse`. The
layout of each file is written down a second time in `Spec/FormatLayouts.lean`, without reference to the classes, together with the
bytes of a file with given contents. The theorems C69 say that all contents are read back. Not modelled: negative numbers of
groups or particles, overflow in `int32` arithmetic (a file with more than 2^31 bytes in one array in numpy 2), sizes of IDs and
floating point numbers other than 4 and 8, and Fortran ordering.

Structured NumPy types (`Model/FormatsPlain.lean`) are lists of fields with sizes and counts; offsets and the size of an element follow the
rules of `np.dtype` with and without `align`. Elements are the bytes of the structure, which are never swapped. The C structures are laid out in
`Spec/FormatsPlain.lean` by filling memory member by member. Strings keep their zeros at the end. C82 and C83 take integer sums and products modulo
2^64 or 2^32.

The methods `sanity_check` (`Model/SanityChecks.lean`) are modelled on the values of the datasets. Sums of `int32` arrays are taken modulo 2^32.
Floating point numbers are rational numbers, infinities or NaN, with exact arithmetic; the sign of zero is left out. Arrays in one comparison have
equal lengths, which C69 gives.

The Fortran subroutine `sort_index` (`Model/FortranSort.lean`) is modelled on lists with indexes from zero, as in its body. Elements are read with a
default outside the arrays; loop conditions keep indexes inside. NaN and integer overflow are left out. `floor(inc/2.2)` in single precision equals the
exact value for the increments which occur (up to 49).

The C code of `examples/millennium/fortran` (`Model/CPeano.lean`, `Model/ReadParticles.lean`) is modelled with `int` of 32 bits whose overflow is an error, as are
shifts out of range and indexes out of arrays; `char` is signed or not. `readregion` (`Model/ReadRegion.lean`) is modelled with the files given by their bytes and
numbers; names are left out.

`GadgetBinarySnapshotFile` is modelled statement by statement (`gadgetSnapshot`), with exceptions at truncated files. If `extra` is a list instead of
a tuple, the code raises TypeError; this is not modelled. `open()` (choice between binary and HDF5) is not modelled.

Snapshots in group order (`GroupOrderedSnapshot` of P-Gadget3 and Gadget-4, `Model/GroupSnapshot.lean`) are modelled from the point where files
are open: a file is the array `NumPart_ThisFile` and a map from type and name to rows. The file names, the reading of the catalogue by the P-Gadget3 constructor, negative
group numbers for Gadget-4, and overflow of the integers are not modelled.

`Model/HashSnapshot.lean` has `Snapshot` of `subfind_lgadget2.py` in the same way (hash table, cache, `read_cells`, `read_region`). Behaviour of NumPy
before 1.12 is a parameter of `readRegion`.

`GroupCatalogue` (`Model/GroupCatalogue.lean`) is modelled with file names made by the `%` operator from a dictionary (only `%(name)d`, `%(name)03d` and `%%`). All files of a catalogue
have the same sizes of IDs and floating point numbers. Datasets which are single numbers can't be concatenated and are not asked for.

The scripts which look for missing files (`Model/FilePresence.lean`) are Python 2. Directories are lists of names; `os.path` functions are modelled on characters. The messages, and the order of the
lines of the summary (that of a dictionary) are left out; so are names with `*`, `?` or `[` in them.

`make_dtrees_table` (`Model/MakeDtreesTable.lean`) joins the models of C57-C61, C70 and C71. Masses are exact numbers; how they are stored as bytes is a parameter. Arrays used for the numbering are signed
integers, masses are floating point numbers, of one dimension, in the byte order of a little endian machine.

`substitute_file_nr` (`Model/SubstituteFileNr.lean`) has the parser of the operator `%` (keys, flags, width, precision, length modifiers, `%%`) and that of `str.format` (as C42). The formatting of one
number is a parameter.

**IDL group library** (`Model/GroupLib.lean`): the functions of `examples/millennium/idl/IdlGroupLib/groupstuff.c` which read
group tables and hash tables (lines 70-481), and in `Model/GroupCoords.lean` the positions of the particles of a group (lines 486-776), and in
`Model/SphericalRegion.lean` the particles around a sphere (lines 780-1015, with the key function of `Model/CPeano.lean`). `peano_hilbert_key_inverse` is not used by the library and not modelled again. Files have the byte order of the machine (parameter `sys`). Messages, `fclose` and `free` are left out;
sums in a `double` are exact integers; `qsort` is a parameter of which only the result is known (a sorted permutation); a variable which a short
`fread` leaves unset is an error of the model. The conversion of arguments from IDL is left out. Positions are
exact rational numbers, given by parameters which decode the bytes; rounding is left out.

`Model/SwiftWrapper.lean` has the wrappers of SWIFT and SOAP files (python/virgo/formats/swift.py 28-77 and 231-356, soap.py). HDF5 files are finite lists of objects with absolute paths; soft and hard links, empty names as keys and multi-dimensional data are left out. The registry of unyt is a list of names with values in CGS units; the ampere is a parameter. `swiftsimio_units` and `swiftsimio_cosmology` (144-175) call another package and are a parameter. Other attributes forwarded by `__getattr__` (243-244), and comparison and hashing of `Mapping`, are not modelled.

`Model/SimWrappers.lean` has the classes of python/virgo/sims with constructors of their own (coco.py 14-56, millennium.py 23-44, millennium2.py 14-79, mxxl.py 30-43) as lists of parameters, together with the rules by which Python binds arguments. Those which only inherit, and `GadgetBinarySnapshotFile` under another name, are covered by the models of their base classes.

`Model/FortranReaders.lean` has the Fortran programs of examples/millennium/fortran which read whole files: `readgroups.f90` (readgrouptab, readgroupids, readsubtab, readsubids, readsubhalos), `readfile.f90` (readheader, readfile) and `file_path.f90`. Direct access files are sequences of records of `recl` bytes, with `recl` in bytes; a record not completely in the file is an I/O error. Sequential unformatted files have markers of four bytes. Internal writes fill the variable with blanks or are an I/O error if the text is too long. Integers are exact; counts outside of what the type can hold are `.other`. The arrays given to `readfile` have room for the particles. Compilers which count `recl` in words, and the memory which allocate needs, are left out.

`Model/Hdf5Lib.lean` has what the wrapper uses of the HDF5 library: types (class, sign, size), datasets (dimensions in the order of Fortran, largest dimensions, elements), selections of hyperslabs, conversion of elements, extension and creation with chunks. It is written from the documentation of the library and is trusted. `Model/Hdf5Data.lean` has `read_data` and `write_data` of the Fortran wrapper (fortran/hdf5_wrapper/src/read_dataset.inc, write_dataset.inc) for one dataset: the checks of types and dimensions, dropping of dimensions with one element, selections in file and memory, and creation options. Byte order in files, compressed data and the generic interfaces for each type and number of dimensions are left out. More than seven dimensions are `.other`. Memory written outside of an array is `.other`.

`Model/Hdf5Files.lean` has the rest of the wrapper: the table of open files, the dataset left open by `read_data`, groups, attributes, types and dimensions (hdf5_wrapper.F90, the four .inc files). A file is a table of paths, all datasets which were ever created, and a table of attributes; two names are two files, and only this program changes files. Variables which are read before they have a value (the table before the first file is opened) give `.other`; `open_dset` is false at the start. The reversed logic of error messages in `hdf5_create_file`, lists of members of groups (`hdf5_list_...`), `hdf5_get_file_id`, messages, attributes of 64 kB or more and conversion of attributes between classes or sizes are left out.

`Model/SnapshotPrograms.lean` has the programs for Millennium-2 (Fortran, C and IDL) and Millennium-WMAP7 (Fortran and C) snapshots: what they read and the lines which they print, with floating point numbers as their bytes. For Millennium-2 the Fortran program prints the total number of particles and the box size too. Memory which `fread` does not fill, and memory outside of arrays, is `.other`. The header of the IDL program is shorter than the record, which is allowed. `H5LTread_dataset` and `H5LTget_attribute` are modelled from the documentation of the library, for types of equal size only. The IDL and Python programs for Millennium-WMAP7 use HDF5 interfaces which are not modelled.

## Velociraptor files

`Model/Velociraptor` follows `formats/velociraptor.py`. The number of columns is read from the file before the names of the columns are added, so that the format is a plain one (`Model/FormatsPlain`) for
each number of columns. `np.int` is taken as 8 bytes as on 64 bit Linux, and sizes are exact integers (in NumPy before version 2 products with `uint64` scalars are floating point numbers, exact below 2^53).
The meaning of the properties is not modelled.

## IDL programs for Millennium files

`Model/IdlReaders` has `ReadSubHalos.pro`, `ReadGroups.pro`, `ReadSingle.pro`, `ReadMulti_xyz.pro`, `ReadPotential.pro`, `ReadTree.pro` and `Read_TreeAux.pro`; `Spec/IdlReaders` has the potential files and what
the variables should be, on top of the layouts of C50-C53. From the documentation of IDL: arrays of a size which is not positive are errors, integers without `L` have 16 bits (so that the counters of files are at most
32767; newer versions of IDL widen the counter of a `for` loop, the theorems ask for fewer files), `string` of an integer has leading blanks, structures of this kind have no gaps, f77 records have lengths of 4 bytes. The lines
which are printed and the plots are left out. Not modelled: `read_sub_tree.pro` and `read_group_m200.pro` (they call procedures which are not in the repository), `PlotCorrel.pro`, `PlotSpectrum.pro` and the programs in
`IdlGroupLib` which call the C library (whose functions are modelled in `Model/GroupLib`).

## Arrays in memory

In `Model/Strided` an array with one or two dimensions has a memory, the position of its first element and two strides; `Spec/Strided` says what it means that rows or columns are stored in one piece. `reshape((-1,))`, the flags
of NumPy, `empty_like` (`order='K'`) and the need for contiguous buffers follow the documentation of NumPy and mpi4py. `repartition2` and `fetchElements2` are `repartition` and `fetch_elements` with these arrays. The chunks of
`my_alltoallv` have more than one element (`itemsize` below 50 MB).

`Model/WriteHdf5.lean` has `BinaryGroup.write_hdf5`. A HDF5 file is a tree of groups with datasets and attributes. h5py raises ValueError for names in use or empty, for compression levels above 9, for chunks with a dimension of zero and for
chunks of 4 GiB or more; the limit on the size of attributes and the creation of the file are left out.

`Model/MultiFileRead.lean` has `MultiFile.read` with several datasets, a group, attributes, file numbers and `unpack`. A file has datasets and one level of groups. The reading of one dataset by ranks together is that of `Model/MultiFile.lean`;
opening of files and `mpi_barrier`-like waits have no effect in the model.

`Model/MultiFileWrite.lean` has `MultiFile.write` with several datasets, a group, attributes and the mode of opening, and `compress_dcpl`. Ranks write different files, so their order does not matter and the model takes them in turn.
The version of HDF5 is an argument of the model of `compress_dcpl`; it has no effect on the contents of files, so it is not part of the model of `write`.

`Model/MultiFileInit.lean` has `MultiFile.__init__` on all ranks. The first file is represented by the numbers found in it; numbers of files given as `file_idx` are not negative.

`Model/FortranPrograms.lean` has the programs of `examples/millennium/fortran`: `readfofgroups`, `readgroupsexample`, `readregionexample`, `readsubhalosexample` and `readfileexample`, on top of the models of the subroutines (`filepath`, the readers in C, `readregion`, `sort_i8`, `peano_hilbert_key`). Output is a list of rows of bytes, so formats are not modelled; prompts are arguments; names typed in have any number of blanks behind them. The pointers in the main programs have no defined status before `readregion` asks for it: the model takes them to be not associated. Floating-point numbers are values of a linear order, and `INT((x/lbox)*float(n))` is a parameter.

`Model/PythonPrograms.lean` has the Python programs of `examples/millennium/python` and `examples/millennium2/python`: `plot_fof_group.py` and both versions of `check_units.py`. What they read from files are arguments (the readers are modelled elsewhere), plots are left out. `np.argsort` has its default method, which is not stable, so its answer is a parameter. Arithmetic is exact in any ordered field with floor (`FloorRing`), and `np.sqrt(a)` is a parameter. `examples/millennium/python/check_units.py` uses `np` and `sqrt` without importing them and would stop with `NameError`; the model takes them as defined. In `check_units.py` the mean velocity is already multiplied by `sqrt(a)` when it is subtracted from velocities which are not; `C112_millennium2` shows that this does not change angular momentum, as positions are relative to their mean.

`Model/WrappedText.lean` has `write_wrapped_text` and `hdf5_abort` of the Fortran wrapper; the loop has fuel, and running out of it stands for a loop which does not end. `Model/Hdf5Lists.lean` has the routines which list the contents of a group or the attributes of an object; the numbering of objects in the HDF5 library (`h5gget_obj_info_idx_f`, `h5aopen_idx_f`) is a parameter.

`Model/MassFunction.lean` has the IDL programs for the mass function of groups, which call the C library of C88; what they plot and print is their result.

`Model/Profiles.lean` has the programs for profiles of groups (`show_profile.pro`, `plot_profile_vmax.pro`, `plot_profile_dens.pro`, `compute_rvmax.py`). Arithmetic is exact, in an ordered field with parameters for the square root, the logarithm and pi; what is read from files is an argument and what is plotted or printed is the result. The fit of a profile in `plot_profile_dens.pro` and the conversion of coordinates to the box are left out. The shrinking of spheres does not end in exact arithmetic if 15 or 25 particles are at the same point; the theorems exclude this. Index -1 (from `where` without result) is an error, as in IDL before version 8.

`Model/Spectrum.lean` has `PlotSpectrum.pro`. Tables and the growth factor are arguments, arithmetic is exact, logarithms, exponential function and square root are parameters with the hypotheses which are needed. Shot noise curves and axes are left out.

`Model/SnapshotPaths.lean` has the names of snapshot files in the Python readers.

`Model/SortTests.lean` has the checks of `test_parallel_sort.py`; random numbers are arguments. Comparison of arrays includes broadcasting of arrays of length one. Timing, structured data types and units are left out (elements are values with a linear order). In C122 the passes of the loop in `run_sendrecv_test` are considered one at a time.

`Model/UtilTests.lean` has the test in `test_util.py`; random numbers are arguments. `Model/Hdf5Instances.lean` has the tables of macros (type, number of dimensions of the dummy array, `NDIMS`) of the four `*_preprocessor.inc` files, transcribed completely; that the compiler chooses the routine with the type and rank of the array is part of the trusted base.

`Model/ParallelHdf5Tests.lean` has the tests in `test_parallel_hdf5.py` without attributes, groups and compression; random numbers are arguments.

`Model/Hdf5Parts.lean` has sequences of calls of `hdf5_write_data` for one dataset, and the two loops of `test_extend.f90` for all sizes. The other calls of this program are instances of `C126_sequence` and `C126_new`; smaller ones of the same form are evaluated in `Props/Hdf5Parts.lean`. The numbers are arguments.

`Model/ShowGroup.lean` has `show_group.pro` and `getcubes.pro`, with the functions of `Model/GroupLib.lean` and `Model/GroupCoords.lean`; plots are left out.

`Model/IdlTables.lean` has `read_sub_tree.pro` and `read_group_m200.pro`. The procedures which these programs call are not in the repository; they are arguments which give the arrays that are used.

`Model/BinaryMapping.lean` has iteration, lengths and `close()` of binary files, on top of the trees of `Model/ReadBinary.lean` and the cache of `Model/FileCache.lean`. `__repr__` and `__array__` with another type are left out.

`Model/Errchk.lean` has `mpi_errchk`. What a rank does is reduced to its number of collective calls and the way its function ends; messages are left out.

`Model/SubhaloCatalogue.lean` has `read_subhalo_catalogue.py`, with the class for sub_tab files of `Model/SimWrappers.lean`. The text of floating point numbers is a parameter. The program is in Python 2; it is modelled as if `print` were the same in Python 3.

`Model/Mr7Scripts.lean` has `read_mr7_snapshot_file.py` and `.pro`. Arrays without elements are an error of the model in IDL; what `h5d_read` does for them is not known.

C133 is about sequences of calls of `Model/Hdf5Files.lean`. `Touches` and `TouchesAttr` (`Spec/Hdf5Persist.lean`) are the calls which may change a dataset or attribute: they are compared by object, not by name.

`Model/Hdf5TestPrograms.lean` has `test_write.f90` and `test_read.f90` as sequences of calls, with one name for the file (the programs have `./test.hdf5` and `test.hdf5`). The values which are written are arguments. Sections of arrays (`r8arr(1:1,:)`, `i4arr(3,1:3)`, `i4arr(1:3,3)`) are arrays of their own; copying them back is done by the compiler. What is printed is what was read; formats are left out.

`Model/SortNan.lean` has `parallel_sort` once more with the comparison `!=` and `find_splitting_points` as parameters. NaN is the largest element of the order, as for `np.argsort` and `np.searchsorted`.

`Spec/Double.lean` has numbers with 53 bits and any range of exponents, rounding to a nearest one and sums in any order. `Model/RoundedSplit.lean` has `weighted_median` and `find_splitting_points` with each operation on weights rounded; `np.sum` is any function which adds all numbers in some order with rounding after each addition. Weights are between 2^-64 and 1, so that the limits of exponents don't matter.

`Spec/FloatBits.lean` has numbers with p bits and any range of exponents. `Model/RoundedKeys.lean` has `peano_hilbert_keys_from_coords` with the size of cells rounded to `float64` and then to the type of the positions, which is what NumPy does in an operation of an array with a Python number, and the quotients rounded to that type.

`Model/MatchNan.lean` has `match` (without `arr2_index`) and `parallel_match` with comparisons of floating point numbers: NaN is sorted last, isn't equal to itself, and is the result of `np.amin` and `np.amax` of arrays which contain it.

`Props/Decode.lean` says which numbers the decoding functions of the models (`leNat`, `int32Value`, `int64Value`, `intValue`, `intOfType`, `intBytes`, `hashKey`, `stripKey`) give, independently of these functions.

`Model/UniqueNan.lean` has `parallel_unique` with comparisons of floating point numbers. `np.unique` is that of NumPy 1.21 and later, which returns NaN once.

`Model/RoundedRegion.lean` has `read_region` with rounded divisions. The sums and remainders of whole numbers which follow are exact.

`Model/BincountOrder.lean` has `parallel_bincount` for any type of weights, with `np.sum` and `np.add` as arguments. Types with limited range (overflow, denormal numbers) are not modelled.

`Model/RoundedSphere.lean` has the functions of `Model/SphericalRegion.lean` which compute with floating point numbers, with rounding to `double` and `float`. Compilers which keep more bits than the type has are not covered.

`Model/RoundedCentre.lean` has `get_group_coordinates` with rounding to `double` and `float`; the loops over particles are written for one coordinate after the other.

## EAGLE file names, database tables and units

`eagle_filename` is modelled on characters: decimal formatting, `glob` for patterns with `?` only, and the regular expression with its greedy
`.*`. The file system is a list of directory and file names for each base directory, and may change between calls.

`make_dtrees_table.py` is modelled except for `add_depth_first_index` and `make_dtrees_table`, which only call other functions. Elements are bytes.

In the functions for units of `swift.py` a unit is the list of the exponents of its symbols, and its value in CGS units the product of powers. The
registry (`soap_unit_registry_from_snapshot`), `swiftsimio_units` and `swiftsimio_cosmology` only call other packages and are not modelled.
