{"id": "C01", "title": "parallel_sort sorts globally without moving the array boundaries", "statement": "After parallel_sort(arr, comm=comm) returns on every rank, the concatenation of the arrays in rank order is in non-decreasing order, holds exactly the same multiset of values as the concatenation before the call, and every rank still has exactly as many elements as it had before. No rank fails, whatever the distribution of values (all equal, empty ranks, already sorted, one rank holding everything). It needs at most 3 (log2 N + 1) passes of the search for splitting points, also when used by parallel_match and parallel_unique.", "quantifier": "every number of ranks, every per-rank array length including zero, every content over a totally ordered element type", "why_tests_cant": "The number of ways of distributing values and duplicates over ranks is unbounded; the splitting-point search has data dependent iteration counts and tie handling that only goes wrong for particular duplicate patterns.", "anchors": ["python/virgo/mpi/parallel_sort.py:parallel_sort", "python/virgo/mpi/parallel_sort.py:find_splitting_points", "python/virgo/mpi/parallel_sort.py:my_argsort"]}
{"id": "C02", "title": "parallel_sort return_index is the stable global argsort", "statement": "With return_index=True the returned distributed index array has the same per-rank lengths as the data, is a permutation of 0..N-1, satisfies sorted[k] = original[index[k]] for the global arrays, and among equal values the indices are increasing (the sort is globally stable).", "quantifier": "every number of ranks, every input distribution and content", "why_tests_cant": "Stability across rank boundaries depends on how instances of each splitting value are divided between destination ranks; a test can only try some of the unboundedly many duplicate patterns.", "anchors": ["python/virgo/mpi/parallel_sort.py:parallel_sort", "python/virgo/mpi/parallel_sort.py:fetch_elements"]}
{"id": "C03", "title": "find_splitting_points terminates with the element of the requested rank", "statement": "For locally sorted arrays with a non-zero total number of elements N and requested ranks 0<=r<N, the iteration terminates on every rank after the same number of iterations, at most 3 (log2 N + 1) of them, and returns on every rank the same value v = the r-th smallest element of the combined array together with min_rank = number of elements < v and max_rank = (number of elements <= v) - 1.", "quantifier": "every number of MPI ranks, every locally sorted input, every list of requested ranks (fewer, as many or more than MPI ranks)", "why_tests_cant": "Termination of the search for every input cannot be established by running it; a livelock or a mismatch in loop trip counts between ranks (deadlock) appears only for special data.", "anchors": ["python/virgo/mpi/parallel_sort.py:find_splitting_points", "python/virgo/mpi/parallel_sort.py:weighted_median"]}
{"id": "C04", "title": "weighted_median returns a true weighted median with positive weight", "statement": "For non-negative weights that are not all zero, weighted_median returns an element of its input whose weight is strictly positive, such that the total weight of entries before it in sorted order and the total weight after it are each at most half of the total. In particular it always finds a candidate (never indexes an empty selection) and never returns a padding entry of zero weight.", "quantifier": "every list of values and non-negative exact weights", "why_tests_cant": "The zero weight entries (ranks with no active elements) hold arbitrary padding values; whether one can ever be selected depends on exact ties at one half that random tests essentially never hit.", "anchors": ["python/virgo/mpi/parallel_sort.py:weighted_median"]}
{"id": "C05", "title": "my_alltoallv (sendrecv method) delivers every block, for every schedule, without deadlock", "statement": "If the count of elements rank s sends to d equals the count d expects from s for all pairs, then the pairwise exchange algorithm terminates under every interleaving of the ranks, never deadlocks even if a Sendrecv can only complete when its partner is in the matching Sendrecv, every matched pair agrees on message sizes, and on completion each receive buffer holds at [recv_offset[s], +recv_count[s]) exactly the elements [send_offset[d], +send_count[d]) of the send buffer of s, with all other positions unchanged. The result does not depend on the message size limit.", "quantifier": "every number of ranks (powers of two or not), all counts and offsets, every message size limit >= 1, every schedule", "why_tests_cant": "Deadlock freedom is a statement over all interleavings; chunk boundary mismatches need messages over 100 MB to appear in a real run.", "anchors": ["python/virgo/mpi/parallel_sort.py:my_alltoallv"]}
{"id": "C06", "title": "my_alltoallv (isend method) gives the same result as the sendrecv method", "statement": "With matching counts the non-blocking implementation completes for every order in which messages are delivered (subject only to MPI non-overtaking per pair of ranks) and leaves the same receive buffers as the sendrecv method.", "quantifier": "every number of ranks, all counts and offsets, every message size limit >= 1, every delivery order", "why_tests_cant": "Delivery order is chosen by the MPI library at run time; tests see only a few of the orders.", "anchors": ["python/virgo/mpi/parallel_sort.py:my_alltoallv"]}
{"id": "C07", "title": "sendrecv transfers the whole array whatever the chunk size", "statement": "If ranks a and b call sendrecv with each other as dest (or a rank calls it with itself), the lengths are exchanged first and then the entire send buffers: afterwards the first n elements of each recvbuf are the n elements of the partner's sendbuf and the rest of recvbuf is unchanged. Both sides of every chunk agree on its length, both sides run the same number of chunks, and the calls complete for any pairing of the ranks under any interleaving.", "quantifier": "every number of ranks, every pairing, all lengths (different in the two directions), every chunk size >= 1, every schedule", "why_tests_cant": "Chunking only starts above 100 MB per message; the space of length combinations and schedules is unbounded.", "anchors": ["python/virgo/mpi/parallel_sort.py:sendrecv"]}
{"id": "C08", "title": "repartition preserves global order and yields the requested sizes", "statement": "repartition(arr, ndesired) returns on rank i an array of exactly ndesired[i] elements, and the concatenation over ranks in rank order is unchanged. It calls Abort exactly when the requested total differs from the actual total.", "quantifier": "every number of ranks, every distribution, every ndesired", "why_tests_cant": "The intersection of old and new partitions has unboundedly many shapes (empty ranks, one old rank covering many new ones, and the reverse).", "anchors": ["python/virgo/mpi/parallel_sort.py:repartition"]}
{"id": "C09", "title": "fetch_elements returns arr[index] for the distributed array", "statement": "For global indices 0<=index<N, fetch_elements(arr, index) returns on each rank an array with result[i] = (concatenation of arr over ranks)[index[i]], in the order of the caller's index array, with repeated indices and empty arrays or index lists allowed. A supplied result buffer receives the same values.", "quantifier": "every number of ranks, every distribution of arr, every in-range index array on every rank", "why_tests_cant": "All combinations of where data lives and which rank asks for what are unbounded, and off-by-one errors at rank boundaries with empty ranks are easy to miss.", "anchors": ["python/virgo/mpi/parallel_sort.py:fetch_elements"]}
{"id": "C10", "title": "Sorting index can be replayed with fetch_elements", "statement": "Fetching the original distributed array (or any companion array distributed in the same way) with the index returned by parallel_sort gives the companion array in sorted order: for the sorted array itself it reproduces exactly what parallel_sort left in arr, on each rank.", "quantifier": "every number of ranks, every input distribution, every companion array of the same lengths", "why_tests_cant": "This is the composition of two distributed algorithms over arbitrary data; unit tests sample it.", "anchors": ["python/virgo/mpi/parallel_sort.py:parallel_sort", "python/virgo/mpi/parallel_sort.py:fetch_elements"]}
{"id": "C11", "title": "parallel_match finds the first match or reports -1", "statement": "parallel_match(arr1, arr2) returns for every element of arr1 on every rank -1 if the value does not occur in the combined arr2, and otherwise the smallest global index j with arr2[j] equal to it. Sizes follow arr1. This holds with duplicates in either array, empty ranks, and empty arrays.", "quantifier": "every number of ranks, every distribution and content of arr1 and arr2", "why_tests_cant": "Duplicates of a value in arr2 may straddle several ranks; correctness for all such patterns and for values below, above and between the per-rank ranges is not testable exhaustively.", "anchors": ["python/virgo/mpi/parallel_sort.py:parallel_match"]}
{"id": "C12", "title": "parallel_match with arr2_sorted=True gives the same answer", "statement": "If the combined arr2 is already sorted then passing arr2_sorted=True returns exactly the same result as the default path.", "quantifier": "every number of ranks, every arr1, every globally sorted arr2", "why_tests_cant": "Equivalence of two code paths over all inputs.", "anchors": ["python/virgo/mpi/parallel_sort.py:parallel_match"]}
{"id": "C13", "title": "parallel_unique returns each distinct value once in order", "statement": "The concatenation over ranks of the array returned by parallel_unique is strictly increasing and contains exactly the values that occur in the combined input, whatever way equal values are spread over ranks. arr_sorted=True gives the same result for globally sorted input.", "quantifier": "every number of ranks, every distribution and content", "why_tests_cant": "A value may span any number of consecutive ranks, including ranks holding nothing else; all patterns cannot be enumerated.", "anchors": ["python/virgo/mpi/parallel_sort.py:parallel_unique"]}
{"id": "C14", "title": "parallel_unique counts are exact", "statement": "With return_counts=True the k-th count is the number of times the k-th distinct value occurs in the combined input; hence counts are positive and sum to N.", "quantifier": "every number of ranks, every distribution and content", "why_tests_cant": "Counts are assembled across rank boundaries from partial counts; errors only appear for particular spanning patterns.", "anchors": ["python/virgo/mpi/parallel_sort.py:parallel_unique"]}
{"id": "C15", "title": "parallel_unique repartition_output balances the result", "statement": "With repartition_output=True the values and counts are unchanged as a global sequence and the first N mod P ranks hold floor(N/P)+1 elements and the others floor(N/P).", "quantifier": "every number of ranks, every input", "why_tests_cant": "Same reason as repartition; also includes fewer distinct values than ranks.", "anchors": ["python/virgo/mpi/parallel_sort.py:parallel_unique", "python/virgo/mpi/parallel_sort.py:repartition"]}
{"id": "C16", "title": "reduce_elements applies every update exactly once to the right element", "statement": "For a commutative and associative op, reduce_elements(arr, updates, index, op) leaves each element j of the distributed array equal to its old value combined with all updates anywhere whose index is j, each applied exactly once; other elements and all rank sizes are unchanged. Sizes of updates and index that differ, or indexes outside 0..N-1, end in an error instead of a silent wrong result.", "quantifier": "every number of ranks, distributions, updates, indexes including repeated ones on the same or different ranks", "why_tests_cant": "Loss or duplication of an update depends on the routing for all partitions; a run checks one partition.", "anchors": ["python/virgo/mpi/parallel_sort.py:reduce_elements"]}
{"id": "C17", "title": "parallel_bincount equals the serial bincount", "statement": "parallel_bincount(x, weights, minlength) gives a distributed array whose concatenation has max(max(x)+1, minlength) bins, bin k holding the number (or total weight) of elements equal to k in the combined x; when result is supplied the counts are added to its previous contents.", "quantifier": "every number of ranks, every distribution of non-negative x and weights, every minlength and result layout", "why_tests_cant": "All inputs and layouts; the repeated-index reduction is only observable as a wrong total for special routing.", "anchors": ["python/virgo/mpi/parallel_sort.py:parallel_bincount"]}
{"id": "C18", "title": "Invalid global indexes", "statement": "For arbitrary integer indexes, the result of fetch_elements is determined exactly. With the request of a rank in ascending order and m negative indexes in it, slot k is answered by the rank holding the index of slot k+m, which looks up the index of slot k (counting from its own first element, from the end if negative); the call fails with IndexError exactly if one of these lookups is out of range; the last m slots keep the previous contents of the result buffer. Consequently, if no index is negative, an index beyond the end always fails, whereas a call with a negative index either fails or leaves the position of the largest index unanswered.", "quantifier": "every number of ranks, every distribution, every index array", "why_tests_cant": "Negative test over all invalid inputs; the wrong answers depend on the distribution of the array over the ranks.", "anchors": ["python/virgo/mpi/parallel_sort.py:fetch_elements"]}
{"id": "C19", "title": "match_halos picks the halo sharing most particles", "statement": "For every halo h in snapshot 1 match_halos returns the halo of snapshot 2 that contains the largest number of h's particles (matched by ID, ungrouped and unmatched particles ignored), the lowest halo number among ties; -1 if there is none.", "quantifier": "every number of ranks, every distribution of particles and halos, all IDs and group numbers", "why_tests_cant": "Composition of distributed match, fetch, unique, and routing, over unbounded data.", "anchors": ["python/virgo/mpi/merger_tree.py:match_halos"]}
{"id": "C20", "title": "consistent_match marks exactly the mutual matches", "statement": "consistent_match(m12, m21)[i] = 1 iff m12[i] is a valid index and m21[m12[i]] = i, else 0.", "quantifier": "every number of ranks, all distributions, all m12 with values -1 or in range, all m21", "why_tests_cant": "All inputs and distributions.", "anchors": ["python/virgo/mpi/merger_tree.py:consistent_match"]}
{"id": "C21", "title": "group_index_from_length_and_offset equals the documented serial loop", "statement": "The group index computed on any number of ranks equals the documented single process loop: start with -1 everywhere and for each group i in global order set grnr[o:o+l]=i, for groups whose offsets are in ascending order on each rank (overlapping and zero length groups included).", "quantifier": "every number of ranks, every distribution of particles (empty ranks included) and of groups over ranks, all lengths and offsets ascending", "why_tests_cant": "Groups may span many ranks and ranks may have no particles: the pointer walk that finds destination ranks has unboundedly many cases.", "anchors": ["python/virgo/mpi/util.py:group_index_from_length_and_offset"]}
{"id": "C22", "title": "group_index_from_length_and_offset return_rank is the position within the group", "statement": "With return_rank=True each particle p assigned to group i also gets rank p - offset[i], and -1 if it is in no group.", "quantifier": "as C21", "why_tests_cant": "as C21", "anchors": ["python/virgo/mpi/util.py:group_index_from_length_and_offset"]}
{"id": "C23", "title": "replace_none_with_zero_size makes absence uniform", "statement": "After replace_none_with_zero_size, either every rank has None (and had None before) or no rank has None; ranks that had data keep it, the others get an empty array with the dtype and trailing dimensions of the lowest ranked rank with data. Hence collective calls made conditional on None are made by all ranks or none.", "quantifier": "every number of ranks, every assignment of arrays or None to ranks", "why_tests_cant": "Uniformity over all assignments is what rules out a hang.", "anchors": ["python/virgo/mpi/util.py:replace_none_with_zero_size", "python/virgo/mpi/util.py:broadcast_dtype_and_dims"]}
{"id": "C24", "title": "gather_array and allgather_array concatenate along the axis", "statement": "gather_array(data, root, axis) returns on root, and allgather_array on every rank, the concatenation in rank order along the given axis of all ranks' arrays (other dimensions equal), None elsewhere.", "quantifier": "every number of ranks, sizes (zero included) and axis", "why_tests_cant": "All shape combinations.", "anchors": ["python/virgo/mpi/gather_array.py:gather_array", "python/virgo/mpi/gather_array.py:allgather_array"]}
{"id": "C25", "title": "MPIArgumentParser gives all ranks the same outcome", "statement": "parse_args either returns rank 0's parsed arguments on all ranks or exits on all ranks; no rank proceeds with different arguments or alone, whichever ranks' own parse fails with an error. (A parser that leaves by its own SystemExit, as for --help, must do so on all ranks: seen by rank 0 only it leaves the others waiting.)", "quantifier": "every number of ranks, every combination of per-rank parse outcomes", "why_tests_cant": "The dangerous case is ranks seeing different outcomes, which a test on one host does not produce.", "anchors": ["python/virgo/mpi/util.py:MPIArgumentParser"]}
{"id": "C26", "title": "assign_files hands out every file and respects the minimum share", "statement": "For nr_ranks>=1 assign_files never raises its internal assertion: the counts sum to nr_files and each rank gets at least floor(nr_files/nr_ranks).", "quantifier": "all nr_files >= 0 and nr_ranks >= 1", "why_tests_cant": "All pairs of integers.", "anchors": ["python/virgo/mpi/parallel_hdf5.py:assign_files"]}
{"id": "C27", "title": "MultiFile assigns work so that each file is read exactly once", "statement": "With at least as many files as ranks the per-rank file ranges are disjoint consecutive intervals covering all files. With fewer files than ranks every rank belongs to exactly one file, the ranks of one file are consecutive, numbered 0.. in order, and every file has at least one rank.", "quantifier": "all numbers of files >= 1 and ranks >= 1", "why_tests_cant": "All pairs of integers, in both regimes.", "anchors": ["python/virgo/mpi/parallel_hdf5.py:MultiFile", "python/virgo/mpi/parallel_hdf5.py:assign_files"]}
{"id": "C28", "title": "MultiFile.read returns the file contents in order", "statement": "The concatenation over ranks of MultiFile.read(name) equals the concatenation over files in file order of the dataset, files without the dataset counting as empty, in both the independent and the collective mode; the result does not depend on the number of ranks.", "quantifier": "every number of ranks and files, all dataset lengths including zero and missing", "why_tests_cant": "All file sizes and both regimes; element to rank splits with remainders.", "anchors": ["python/virgo/mpi/parallel_hdf5.py:MultiFile.read", "python/virgo/mpi/parallel_hdf5.py:MultiFile._read_independent", "python/virgo/mpi/parallel_hdf5.py:MultiFile._read_collective"]}
{"id": "C29", "title": "MultiFile.read reports the file number of each element", "statement": "With return_file_nr the file number array is aligned with the data: element k of the global array comes from the file whose number is reported.", "quantifier": "as C28", "why_tests_cant": "as C28", "anchors": ["python/virgo/mpi/parallel_hdf5.py:MultiFile.read"]}
{"id": "C30", "title": "get_elements_per_file and write reproduce the file structure", "statement": "Data read with read() and written with write() using get_elements_per_file() puts in each output file exactly the rows of the corresponding input file, in both regimes.", "quantifier": "every number of ranks and files, all dataset lengths", "why_tests_cant": "Round trip over all layouts.", "anchors": ["python/virgo/mpi/parallel_hdf5.py:MultiFile.write", "python/virgo/mpi/parallel_hdf5.py:MultiFile.get_elements_per_file"]}
{"id": "C31", "title": "collective_read splits the dataset exactly", "statement": "collective_read gives rank i a consecutive part of the dataset, the concatenation over ranks is the dataset, and all ranks make the same number of collective read calls with each call at most the buffer size.", "quantifier": "every number of ranks, dataset length, element size (at most the buffer size)", "why_tests_cant": "All sizes; mismatched numbers of collective calls hang only for particular sizes.", "anchors": ["python/virgo/mpi/parallel_hdf5.py:collective_read"]}
{"id": "C32", "title": "collective_write stores the concatenation", "statement": "collective_write creates a dataset equal to the concatenation in rank order of the arrays, all ranks make the same number of collective writes, each element is written exactly once, and the loop terminates when an element fits in the buffer.", "quantifier": "every number of ranks, all lengths, element sizes, buffer sizes", "why_tests_cant": "All sizes; chunk loop.", "anchors": ["python/virgo/mpi/parallel_hdf5.py:collective_write"]}
{"id": "C33", "title": "Chunked collective I/O with oversized elements", "statement": "A row must fit in the I/O buffer. If it does not, collective_write loops for ever as soon as there is one row, and collective_read of ten or more rows per rank returns uninitialised arrays without an error; smaller datasets are read correctly whatever the size of a row.", "quantifier": "all row sizes and buffer sizes", "why_tests_cant": "Rows above 100 MB are impractical in tests.", "anchors": ["python/virgo/mpi/parallel_hdf5.py:collective_write", "python/virgo/mpi/parallel_hdf5.py:collective_read"]}
{"id": "C34", "title": "match returns a correct index or -1", "statement": "virgo.util.match.match(arr1, arr2) returns for each i an index j with arr2[j]=arr1[i] if such exists and -1 otherwise; with arr2_sorted it gives the first such index; with arr2_index any valid sorting permutation may be supplied.", "quantifier": "all arrays over a totally ordered type, every sorting permutation an unstable argsort may return", "why_tests_cant": "All inputs and all admissible unstable sort results.", "anchors": ["python/virgo/util/match.py:match"]}
{"id": "C35", "title": "assign_ranges equals element by element range assignment", "statement": "For in-bounds, ascending, non-overlapping ranges assign_ranges(array, offset, length, value) sets array[o_i:o_i+l_i]=v_i for each i and leaves everything else unchanged, for any number of ranges including zero, one and zero length ranges; with two or more ranges, overlapping, unordered or out of bounds ranges raise an exception without changing the array.", "quantifier": "all arrays, all lists of ranges", "why_tests_cant": "All range layouts.", "anchors": ["python/virgo/util/ranges.py:assign_ranges"]}
{"id": "C36", "title": "sum_ranges equals the per range sums", "statement": "sum_ranges(array, offset, length, weight, normalize) returns for each range the (weighted, optionally normalised) sum of its elements, zero for an empty range.", "quantifier": "all arrays, all lists of in-bounds ascending non-overlapping ranges, all weights", "why_tests_cant": "All range layouts including empty ranges between and at the ends.", "anchors": ["python/virgo/util/ranges.py:sum_ranges"]}
{"id": "C37", "title": "Peano-Hilbert keys and coordinates are mutually inverse", "statement": "peano_hilbert_key_inverses(peano_hilbert_keys(x,y,z,bits),bits)=(x,y,z) for coordinates in [0,2^bits) and conversely for keys in [0,8^bits); so the key is a bijection between cells and 0..8^bits-1.", "quantifier": "every bits from 1 to 21 (all for which the key fits in int64) and every coordinate triple / key in range, scalars and arrays", "why_tests_cant": "8^bits cells for every number of bits.", "anchors": ["python/virgo/util/peano.py:peano_hilbert_keys", "python/virgo/util/peano.py:peano_hilbert_key_inverses"]}
{"id": "C38", "title": "Peano-Hilbert keys are in range and depend only on the low bits", "statement": "For bits <= 21, 0 <= key < 8^bits for every input. For every bits, the bits of the coordinates above the bits-th are ignored. For bits from 22 to 31 the key overflows int64 without an error and two different cells of the grid have the same key.", "quantifier": "every bits and every coordinate triple, negative coordinates included", "why_tests_cant": "Unbounded input.", "anchors": ["python/virgo/util/peano.py:peano_hilbert_keys"]}
{"id": "C39", "title": "Consecutive Peano-Hilbert keys are neighbouring cells", "statement": "For every k with k+1<8^bits the cells of keys k and k+1 differ by exactly one in exactly one coordinate (the curve is continuous).", "quantifier": "every bits from 1 to 21 and every key", "why_tests_cant": "8^bits keys for every bits.", "anchors": ["python/virgo/util/peano.py:peano_hilbert_key_inverses"]}
{"id": "C40", "title": "Peano-Hilbert keys nest", "statement": "The key of the parent cell (x/2,y/2,z/2) with one bit fewer is key/8, and likewise for d levels key/8^d; two cells are in the same coarse cell exactly when their keys are in the same aligned run of 8^d keys.", "quantifier": "every bits up to 21, every number of levels d < bits and all coordinates", "why_tests_cant": "Unbounded input.", "anchors": ["python/virgo/util/peano.py:peano_hilbert_keys"]}
{"id": "C41", "title": "Blockwise evaluation does not change Peano-Hilbert results", "statement": "The array versions process the input in blocks and advance all elements together; the result for element i is the scalar result for element i and an error is raised exactly when the scalar function raises it.", "quantifier": "all array lengths and block sizes >= 1", "why_tests_cant": "Block boundary cases for all lengths.", "anchors": ["python/virgo/util/peano.py:peano_hilbert_keys"]}
{"id": "C42", "title": "PartialFormatter fills what it knows and keeps the rest", "statement": "For format strings made of literal text and plain named fields (no doubled braces, conversions, dotted, indexed or nested fields): formatting with a subset of the fields, whose formatted values contain no braces, and then formatting the result with the remaining ones gives the same string as formatting once with all fields. Fields given as None, or missing when missing fields are ignored, are reproduced with their format spec (an empty spec loses its colon). Outside this class the claim fails: doubled braces and conversions are lost in the first step.", "quantifier": "all format strings of the stated class, all splits of the fields; two witnesses outside it", "why_tests_cant": "All strings.", "anchors": ["python/virgo/util/partial_formatter.py:PartialFormatter"]}
{"id": "C43", "title": "read_multi concatenates per file datasets", "statement": "read_multi(format_str, idx, datasets) with distinct dataset names returns for each dataset the concatenation in the order of idx of the contents in the files which have it, if every file can be opened and each dataset is in at least one file. A dataset which is in no file, or a name given twice, makes it raise ValueError.", "quantifier": "all file collections, index lists and dataset lists", "why_tests_cant": "All inputs.", "anchors": ["python/virgo/util/read_multi.py:read_multi"]}
{"id": "C44", "title": "BinaryFile blocks are laid out consecutively", "statement": "Datasets and attributes declared with add_dataset/add_attribute/skip on a BinaryFile are laid out in declaration order: the offset of each is the sum of the sizes of all blocks before it and of the bytes skipped before it, whatever groups they are placed in. Without negative skips the byte ranges do not overlap. A declaration which raises changes nothing.", "quantifier": "every sequence of add_dataset, add_attribute, skip_bytes and record operations", "why_tests_cant": "All histories of declarations.", "anchors": ["python/virgo/util/read_binary.py:BinaryFile"]}
{"id": "C45", "title": "all_bytes_used holds exactly when the declared blocks tile the file", "statement": "If all_bytes_used() returns True then every byte of the file belongs to exactly one declared block and no block contains anything else; the converse holds if no block is empty.", "quantifier": "every set of declared blocks and file size", "why_tests_cant": "All layouts including overlaps, gaps and skips.", "anchors": ["python/virgo/util/read_binary.py:BinaryFile.all_bytes_used"]}
{"id": "C46", "title": "BinaryFile names resolve to what was declared", "statement": "After any sequence of calls, looking up a path returns a dataset exactly if a dataset was declared with the same components (leading, trailing and repeated slashes do not matter), and it is that dataset, whatever is declared before or after. A dataset can be declared exactly if nothing is at its path and no dataset is on the way; otherwise KeyError is raised. The same holds for attributes: one declared below a dataset belongs to it, with the rest of the path as its name (slashes are not stripped from this name); any other belongs to the group on its path.", "quantifier": "every sequence of declarations and lookups over arbitrary paths", "why_tests_cant": "All histories over all path names.", "anchors": ["python/virgo/util/read_binary.py:BinaryGroup", "python/virgo/util/read_binary.py:_split_path"]}
{"id": "C47", "title": "Values read do not depend on the byte order of the file", "statement": "Reading gives the values in the file in its declared byte order, on either kind of machine and for any byte order of the type in memory, so a file and its byte swapped copy give identical values. Reading outside the file raises IOError. (Types without byte order or whose swapped form is the reversed bytes.)", "quantifier": "all item sizes, all values, all slices", "why_tests_cant": "All values.", "anchors": ["python/virgo/util/read_binary.py:BinaryDataset", "python/virgo/util/read_binary.py:need_byteswap"]}
{"id": "C48", "title": "Changing byte order applies to the whole file", "statement": "After set_endian or enable_byteswap every existing dataset and attribute, and every dataset declared later, is read with the new byte order, and so are later attributes of the file itself and of groups. toggle_byteswap does this when the order was native. The documented claim for everything in the file fails in two cases: toggle_byteswap after an explicit order leaves existing blocks unchanged, and attributes of datasets declared later stay native.", "quantifier": "every history of declarations and byte order changes", "why_tests_cant": "All histories.", "anchors": ["python/virgo/util/read_binary.py:BinaryFile.set_endian", "python/virgo/util/read_binary.py:BinaryFile.enable_byteswap", "python/virgo/util/read_binary.py:BinaryFile.toggle_byteswap"]}
{"id": "C49", "title": "Fortran records are checked and byte order is detected", "statement": "start_fortran_record/end_fortran_record accept a record iff its leading and trailing markers both equal the number of bytes declared in between. With auto_byteswap in a file of native order so far, a record of 1 to 65535 bytes is accepted in either order and all blocks are then read in its order, a longer one raises, and nothing is accepted whose markers differ or fit the length in neither order. If an explicit order had been set, the contents of a record detected as swapped stay in the old order.", "quantifier": "every record length in range and both byte orders, all declared contents", "why_tests_cant": "All lengths.", "anchors": ["python/virgo/util/read_binary.py:BinaryFile.start_fortran_record", "python/virgo/util/read_binary.py:BinaryFile.end_fortran_record"]}
{"id": "C50", "title": "The open file cache is bounded and transparent", "statement": "At any time at most 32 files are held open by BinaryDataset access, and every read returns the data of its own file, whatever the history of reads, closes and garbage collections over any number of files.", "quantifier": "every history of accesses to any number of files", "why_tests_cant": "All histories; eviction bugs only show after particular access sequences.", "anchors": ["python/virgo/util/read_binary.py:BinaryDataset._mmap_file"]}
{"id": "C51", "title": "write_binary and hash are faithful and order independent", "statement": "Non-empty blocks which do not overlap, written with write_binary in a given byte order, give the same values when read at the same places in that order; without a byte order each block is written in the order of its type. The default mode of write_binary is not valid for open, so that it raises unless a mode is given. If every byte belongs to exactly one (non-empty) block, what is hashed consists of the values in little endian order: a file and its byte swapped copy have the same hash, and in a little endian file the bytes hashed are those of the file. Otherwise hash raises IOError.", "quantifier": "all values, item sizes and byte orders", "why_tests_cant": "All values.", "anchors": ["python/virgo/util/read_binary.py:BinaryFile"]}
{"id": "C52", "title": "Byte order detection from a small integer header field is sound", "statement": "For the sub_tab/sub_ids/group readers, which switch byte order when the number of files is <1 or >65535: a file with 1..65535 files written in either byte order is recognised correctly. For snapshot files the header record length 256 is recognised in either order and everything else is rejected.", "quantifier": "all 32 bit values in the stated ranges, both byte orders", "why_tests_cant": "All values.", "anchors": ["python/virgo/formats/subfind_lgadget3.py:SubTabFile", "python/virgo/formats/subfind_lgadget2.py:SubTabFile", "python/virgo/formats/gadget_snapshot.py"]}
{"id": "C53", "title": "Gadget binary snapshots are parsed at the right offsets", "statement": "For every well formed type 1 Gadget file the block of each particle type and property declared by the reader is located at the byte range where the format puts it, for all particle numbers (including zero), mass tables, precisions and extra blocks.", "quantifier": "all particle numbers per type, mass tables, precision choices, block lists", "why_tests_cant": "All headers.", "anchors": ["python/virgo/formats/gadget_snapshot.py:GadgetBinarySnapshotFile"]}
{"id": "C54", "title": "read_particle_range returns the slice of the multi-file snapshot", "statement": "Reading offset, count from a group ordered multi-file snapshot returns, for every array asked for, the elements [offset, offset+count) of the concatenation over files, whatever calls (also failed ones) were made before and so whichever file sizes are known; a range with no particles in the snapshot raises ValueError. Groups are read with the offset and length of the catalogue.", "quantifier": "all numbers of files, all file lengths (zero included), all ranges, all histories of previous calls", "why_tests_cant": "All alignments of the range with file boundaries.", "anchors": ["python/virgo/formats/subfind_pgadget3.py:GroupOrderedSnapshot"]}
{"id": "C55", "title": "read_fof_group (Gadget-4) returns all particles of the group unless its last particle is the first one of a file", "statement": "For every particle type, read_fof_group returns exactly the particles [offset, offset+len) of that type in the concatenation over files, with the subhalo of each particle (or -1), whatever groups were read before, if no file ends just before the last particle of the group. Otherwise the arrays can only lack the last particle of a type, and this happens exactly if the files read end just before it. The table of groups is that of all files together; it cannot be made without subhalos.", "quantifier": "all numbers of files, all file lengths, all groups, all histories of previous calls", "why_tests_cant": "All alignments of groups with file boundaries.", "anchors": ["python/virgo/formats/subfind_gadget4.py:GroupOrderedSnapshot"]}
{"id": "C56", "title": "Reading cells from a hashed snapshot returns exactly the particles in those cells", "statement": "read_cells on Millennium type snapshots returns, once each and in file order, the particles that belong to the selected hash cells, independent of which files were visited or cached before; ValueError is raised if no file has one of these cells and IndexError for cells outside the grid. With a NumPy that accepts floats as array sizes, read_region returns the particles in exactly those cells which the region or its periodic images meet; with later versions it always raises TypeError.", "quantifier": "all file collections with consistent hash tables, all cell selections, all regions (exact arithmetic), all call histories", "why_tests_cant": "All selections and histories.", "anchors": ["python/virgo/formats/subfind_lgadget2.py:Snapshot"]}
{"id": "C57", "title": "depth_first_index numbers every halo exactly once", "statement": "For every merger forest depth_first_index assigns the numbers 1..n (n halos) with no repeats, in depth first order: each halo's number is smaller than those of all of its progenitors, and progenitors of the same halo are numbered in the order of descending branch mass. It terminates for every input with unique halo indexes; inputs with a cycle raise AssertionError instead of returning.", "quantifier": "every descendant table (forests of any shape and depth), all masses", "why_tests_cant": "All tree shapes.", "anchors": ["python/virgo/database/index_trees.py:depth_first_index"]}
{"id": "C58", "title": "Progenitors of a halo are a contiguous index range", "statement": "The set of all halos from which a halo can be reached along descendant links (including itself) is exactly those with depthFirstIndex in [depthFirstIndex, lastProgenitor] of the halo.", "quantifier": "every merger forest, every halo", "why_tests_cant": "All tree shapes.", "anchors": ["python/virgo/database/index_trees.py:depth_first_index"]}
{"id": "C59", "title": "The main branch is a contiguous index range", "statement": "The halos on the main branch of a halo (repeatedly taking the most massive-branch progenitor) are exactly those with index in [depthFirstIndex, endMainBranch].", "quantifier": "every merger forest, every halo", "why_tests_cant": "All tree shapes.", "anchors": ["python/virgo/database/index_trees.py:depth_first_index"]}
{"id": "C60", "title": "Progenitor tree mass", "statement": "find_progenitor_tree_mass gives for each halo the sum of the masses of all halos in its progenitor tree including itself, when descendants are at later snapshots.", "quantifier": "every merger forest with increasing snapshot numbers, every file order of halos", "why_tests_cant": "All tree shapes and orders.", "anchors": ["python/virgo/database/index_trees.py:find_progenitor_tree_mass"]}
{"id": "C61", "title": "De Lucia branch mass", "statement": "find_progenitor_branch_mass_delucia gives for each halo the largest total mass of a chain of progenitors ending at it.", "quantifier": "as C60; masses of either sign", "why_tests_cant": "All tree shapes and orders.", "anchors": ["python/virgo/database/index_trees.py:find_progenitor_branch_mass_delucia"]}
{"id": "C62", "title": "Main progenitor choice", "statement": "find_main_progenitor marks for each halo that has progenitors with positive branch mass exactly one of them: the one with the largest branch mass, among equals that at the earliest snapshot, and then that with the largest index, so that the choice does not depend on the order of halos in the file or on the sorting algorithm; otherwise it gives -1. If branch masses are not negative, the number of ties is the number of other progenitors whose branch mass equals the largest up to the relative tolerance.", "quantifier": "every list of halos with unique indexes, in every order, for every result of the sorts", "why_tests_cant": "All tree shapes and orders.", "anchors": ["python/virgo/database/index_trees.py:find_main_progenitor"]}
{"id": "C63", "title": "EAGLE file name cache is transparent", "statement": "Whatever calls were made before, and however the file system changed between them, eagle_filename returns the path of a file which is present, provided each output has one redshift label. For a file which is absent it raises IOError exactly if no file of the same output was found before; otherwise it returns the path the file would have. Without the cache a returned file is the only one which fits.", "quantifier": "every history of calls, each with its own file system contents", "why_tests_cant": "All histories; tests call the function with files which exist.", "anchors": ["python/virgo/sims/eagle.py:eagle_filename"]}
{"id": "C64", "title": "Directory hashing hands out each directory once and collects all hashes", "statement": "In the MPI hashing tool every directory is hashed by exactly one task, the output lists every selected file once, in order, with its hash, and all tasks terminate without deadlock, under every timing of tasks, for every number of tasks, and whether or not messages are buffered.", "quantifier": "every number of tasks and directories, every interleaving", "why_tests_cant": "All schedules.", "anchors": ["consistency_check/hash/hash_dirs_mpi.py:DirectoryList", "consistency_check/hash/hash_dirs_mpi.py:hash_dir", "consistency_check/hash/hash_dirs_mpi.py:recursive_hash"]}
{"id": "C65", "title": "Directory hashing can be resumed after a crash once something is stored", "statement": "If a run using a database is killed at any point and resumed (repeatedly, on any number of tasks), the final output is the same as of an uninterrupted run on the unchanged file tree, no path is stored in the database twice, and the hashes in it are right. Resuming is refused exactly if there is no database or nothing was stored for this base directory and hash type.", "quantifier": "every sequence of crash points and interleavings", "why_tests_cant": "All crash points.", "anchors": ["consistency_check/hash/hash_dirs_mpi.py:DirectoryList"]}
{"id": "C66", "title": "Unit conversion from attributes is consistent", "statement": "soap_units_from_attributes returns a unit with exactly the exponents in the attributes, those of a and h included, whose value in CGS units equals the conversion factor stored in the attributes to within 1e-9 of its value. A missing exponent or conversion factor is a KeyError.", "quantifier": "all exponent combinations, unit systems and factors; exact arithmetic", "why_tests_cant": "All exponents and factors.", "anchors": ["python/virgo/formats/swift.py:soap_units_from_attributes"]}
{"id": "C67", "title": "SQL type mapping can be inverted", "statement": "sql_type accepts exactly the four and eight byte integers and floating point numbers in native byte order and strings, and its result has the same size. numpy_type would invert it if the module had the name re; as the code is, it raises NameError whatever its argument.", "quantifier": "all types and all strings", "why_tests_cant": "Completeness of the mapping tables.", "anchors": ["python/virgo/database/make_dtrees_table.py:sql_type", "python/virgo/database/make_dtrees_table.py:numpy_type"]}
{"id": "C68", "title": "Keys from coordinates are the keys of the containing cells", "statement": "peano_hilbert_keys_from_coords gives each position the key of the grid cell which contains it, or which contains its periodic image if it is outside the box.", "quantifier": "all positions, box sizes > 0, bits from 1 to 21, array lengths and block sizes; exact arithmetic", "why_tests_cant": "Real valued input.", "anchors": ["python/virgo/util/peano.py:peano_hilbert_keys_from_coords"]}
{"id": "C69", "title": "Catalogue and snapshot classes read the documented layout in both byte orders", "statement": "For every file with the layout of a class (subhalo, group and ID tables of L-Gadget2, L-Gadget3, P-Gadget3 and Gadget-4, Millennium snapshots), written with any contents in either byte order and read on a machine of either byte order, the constructor succeeds and every dataset and header attribute gives the contents which were written; names which are not in the layout give KeyError. For the record based formats the Fortran record lengths are consistent with the layout. L-Gadget2 GroupIDsFile is an exception: it can open no file.", "quantifier": "all contents, numbers of groups, subhalos and IDs, word sizes, optional blocks, byte orders of file and machine", "why_tests_cant": "The wrong dataset is only noticed by looking at values; big endian machines and most optional blocks have no test data.", "anchors": ["python/virgo/formats/subfind_lgadget2.py:SubTabFile", "python/virgo/formats/subfind_lgadget3.py:SubTabFile", "python/virgo/formats/subfind_pgadget3.py:SubTabFile", "python/virgo/formats/subfind_gadget4.py:SubTabFile", "python/virgo/formats/subfind_lgadget2.py:SnapshotFile"]}
{"id": "C70", "title": "Native table files have the layout of their table", "statement": "write_sql_server_native_file writes one record for each row, which has the values of the columns in order without gaps, three columns for each vector. The script defines the same columns in the same order with SQL types of the same sizes. Arrays of different lengths, arrays of other shapes and equal column names raise ValueError before anything is written; types which are not supported raise ValueError after the data file was written.", "quantifier": "all numbers of rows, sets of arrays, types and contents; any contents of uninitialised memory", "why_tests_cant": "A wrong offset shows only for some combinations of types.", "anchors": ["python/virgo/database/make_dtrees_table.py:write_sql_server_native_file"]}
{"id": "C71", "title": "Merger trees are read completely and in order", "statement": "read_dhalo_trees returns the datasets of the first file, each with the rows of all files in the order of the files; a file without a dataset adds no rows to it. A file which is missing is an IOError, a dataset which is not in the first file a KeyError.", "quantifier": "all numbers of files and contents, arrays of one type for each name", "why_tests_cant": "All numbers of files.", "anchors": ["python/virgo/database/make_dtrees_table.py:read_dhalo_trees"]}
{"id": "C72", "title": "swiftsimio units and the comoving flag agree with the attributes", "statement": "swiftsimio_units_from_attributes returns a unit with the exponents in the attributes except that of a, whose CGS value equals the conversion factor without cosmological corrections to within 1e-9 of its value, and the flag is true exactly if there is a power of a. A power of h, or a power of a which is neither zero nor that of the length, is a ValueError.", "quantifier": "all exponent combinations, unit systems and factors; exact arithmetic", "why_tests_cant": "All exponents and factors.", "anchors": ["python/virgo/formats/swift.py:swiftsimio_units_from_attributes"]}
{"id": "C73", "title": "Sanity checks accept exactly the consistent L-Gadget2 group and subhalo tables", "statement": "GroupTabFile.sanity_check returns normally exactly if the group sizes add up to the number of particle IDs, every offset is an index of a particle and each group starts where the one before ends; then, if the first group starts at zero, every particle is in one group and no other. SubTabFile.sanity_check returns normally exactly if the counts of subhalos per halo are not negative and add up, first subhalos and particle ranges are inside the arrays (up to overflow of the 32 bit sum), each subhalo has the parent implied by the counts, and all listed properties are finite. Every other table raises SanityCheckFailedException, or ValueError in the presence of a negative count. The offset of the first group is not tested, and ends which overflow 32 bits are accepted.", "quantifier": "all tables with 32 bit integers and arrays of the declared lengths", "why_tests_cant": "A test can try a few corrupted tables; that nothing inconsistent is accepted, and that overflows are the only exception, is about all tables.", "anchors": ["python/virgo/formats/subfind_lgadget2.py:GroupTabFile.sanity_check", "python/virgo/formats/subfind_lgadget2.py:SubTabFile.sanity_check"]}
{"id": "C74", "title": "Sanity checks of particle ID files", "statement": "For L-Gadget2 the check passes exactly if each value has a hash key below 2^24 above its low 34 bits, an ID of at most 2160^3 in the low 34 bits, and at most one particle has ID zero. For L-Gadget3 and P-Gadget3 it passes exactly if the whole file was used and no ID appears twice. All others raise SanityCheckFailedException.", "quantifier": "all lists of IDs", "why_tests_cant": "All lists of IDs.", "anchors": ["python/virgo/formats/subfind_lgadget2.py:GroupIDsFile.sanity_check", "python/virgo/formats/subfind_lgadget2.py:SubIDsFile.sanity_check", "python/virgo/formats/subfind_lgadget3.py:SubIDsFile.sanity_check", "python/virgo/formats/subfind_pgadget3.py:GroupIDsFile.sanity_check", "python/virgo/formats/subfind_pgadget3.py:SubIDsFile.sanity_check"]}
{"id": "C75", "title": "The Millennium snapshot check places every particle in its Peano-Hilbert cell", "statement": "With a valid hash table of 8^bits cells, SnapshotFile.sanity_check (in Python 2) returns normally exactly if all positions are finite and in the box, velocities are finite and at most 10^6, IDs are at most the total number of particles, and some periodic image of each particle is within the cell whose Peano-Hilbert key is the one the hash table gives to the particle, up to 0.1 per cent of half a cell. In Python 3 it never returns normally for a file with particles.", "quantifier": "all files, all hash tables with 1 to 10 bits per dimension, all block sizes; exact arithmetic", "why_tests_cant": "All positions and hash tables.", "anchors": ["python/virgo/formats/subfind_lgadget2.py:SnapshotFile.sanity_check", "python/virgo/util/peano.py:peano_hilbert_key_inverses"]}
{"id": "C76", "title": "Sanity checks of L-Gadget3 and P-Gadget3 tables accept exactly the consistent ones", "statement": "The subhalo table checks pass exactly if the file size is right, totals and sizes are not negative, ranges of particles and subhalos are inside the arrays (up to overflow of 32 bit sums; P-Gadget3 group ranges have no overflow), group numbers are in range and ascending, and the listed properties are finite and where required not negative; all others raise SanityCheckFailedException or Exception. The P-Gadget3 group table check passes exactly if sizes and masses of the types add up and, for more than one particle, each group starts where the one before ends. A group with a negative mass or NaN never fails the mass test.", "quantifier": "all tables with arrays of the declared lengths; exact arithmetic", "why_tests_cant": "All tables.", "anchors": ["python/virgo/formats/subfind_lgadget3.py:SubTabFile.sanity_check", "python/virgo/formats/subfind_pgadget3.py:SubTabFile.sanity_check", "python/virgo/formats/subfind_pgadget3.py:GroupTabFile.sanity_check"]}
{"id": "C77", "title": "sort_index of the Fortran examples returns an index which sorts", "statement": "If the index array is at least as long as the array, sort_index puts into its first elements the positions in the array (from one), each once, such that the values are in ascending order; both for the shell sort (fewer than 100 elements) and for the heap sort. Further elements of the index are raised by one if there are two values or more. It stops exactly if the index array is shorter than the array.", "quantifier": "all arrays over a linear order, all index arrays", "why_tests_cant": "All arrays of any size; tests sort some arrays.", "anchors": ["examples/millennium/fortran/sort.f90:sort_index"]}
{"id": "C78", "title": "The C code for Peano-Hilbert keys gives the keys of the Python module", "statement": "peano_hilbert_key of peano_keys.c returns the key of virgo.util.peano for 1 to 10 bits and any coordinates, whether char is signed or not. With more bits it is defined exactly if the key is below 2^31, and is then the same key; otherwise an int overflows. peano_hilbert_key_inverse, in any sequence of calls after the start of the program (including the one which fills its static tables), returns the coordinates of the key as the Python function does, for 1 to 10 bits; for other numbers of bits it is undefined.", "quantifier": "all coordinates, all numbers of bits, all sequences of calls", "why_tests_cant": "2^30 keys per order of the curve, unspecified signedness of char, state kept between calls.", "anchors": ["examples/millennium/fortran/peano_keys.c:peano_hilbert_key", "examples/millennium/fortran/peano_keys.c:peano_hilbert_key_inverse"]}
{"id": "C79", "title": "The C code of the Fortran examples reads Millennium snapshots correctly", "statement": "On files with up to 67108854 particles, readpartcoords, readpartvel and readpartids return the values stored for the particles ifirst to ilast, and readhash the number of particles, the first and last cell and the hash table, for both byte orders of file and machine if BYTESWAP is set exactly when they differ. If the file ends before the last of the values of the particles, nothing is returned. With more particles the position of the hash table overflows. open_gadget opens the given name if it has no blank; a name with a blank is cut there.", "quantifier": "all contents of files, all ranges of particles, both byte orders", "why_tests_cant": "All file contents and ranges, on both kinds of machine.", "anchors": ["examples/millennium/fortran/readparticles.c:readpartcoords_", "examples/millennium/fortran/readparticles.c:readpartvel_", "examples/millennium/fortran/readparticles.c:readpartids_", "examples/millennium/fortran/readparticles.c:readhash_", "examples/millennium/fortran/readparticles.c:open_gadget_"]}
{"id": "C80", "title": "readregion returns exactly the particles in the flagged cells", "statement": "For a snapshot of any number of files whose cells follow each other, and any flags, readregion returns the particles of the flagged cells, each once, in the order of the cells, if there are any. If no particle is in the flagged cells it closes a file which has been closed before.", "quantifier": "all snapshots, all sets of flagged cells, all uninitialised values", "why_tests_cant": "Sets of cells crossing the ends of files, empty cells, empty files; tests take some of them.", "anchors": ["examples/millennium/fortran/readregion.f90:readregion"]}
{"id": "C81", "title": "Trees, Rockstar halos and descendants are read back", "statement": "A file of merger trees, tree particles, descendants (MPA and MXXL) or Rockstar halos, written on a machine with the same byte order, is read back completely, and elements of arrays of structures have the bytes of each member under its name: the NumPy types agree with the C structures, with any bytes in the gaps. Names which are not in the layout give KeyError. all_bytes_used tells whether anything follows.", "quantifier": "all contents, numbers of halos, trees, particles and snapshots, sizes of IDs, format revisions, both kinds of machine, all padding bytes, all bytes which follow", "why_tests_cant": "A structure with a member missing or in the wrong place still reads for many files; gaps depend on the options.", "anchors": ["python/virgo/formats/mpa_trees.py:SubDescFile", "python/virgo/formats/mpa_trees.py:TreeAuxFile", "python/virgo/formats/mpa_trees.py:TreeFile", "python/virgo/formats/rockstar.py:HalosFile", "python/virgo/sims/mxxl.py:SubDescFile"]}
{"id": "C82", "title": "The sanity check of Rockstar halos finds particles outside the array", "statement": "If no sum overflows, sanity_check passes exactly if p_start is not negative and p_start + num_p does not exceed the number of IDs for every halo. Sums which overflow pass.", "quantifier": "all halos, all numbers of IDs", "why_tests_cant": "Overflow needs numbers which only occur if the structure is read wrongly, which is what the check is for.", "anchors": ["python/virgo/formats/rockstar.py:HalosFile.sanity_check"]}
{"id": "C83", "title": "Density fields of Millennium-XXL are read if and only if their byte order is foreign", "statement": "A file with the density field written on a machine with the other byte order is read back completely. One written on a machine with the same byte order is refused with IOError, for any grid of up to 65535 cells per side, since the length of the first record (20) is compared to 8.", "quantifier": "all grids, both kinds of machine, products with 32 or 64 bits, all bytes which follow", "why_tests_cant": "Tests on one machine with its own files or with those of another one see only one of the two.", "anchors": ["python/virgo/sims/mxxl.py:FieldFile"]}
{"id": "C84", "title": "Group catalogues are the concatenation of their files", "statement": "GroupCatalogue of Gadget-4 and P-Gadget3 reads as many files as the first one says and gives the arrays asked for, in this order, each with the type and row shape of the format, and with one entry for each group or subhalo of all files in the order of the files. Byte orders and trailing bytes may differ between files and Gadget-4 files without groups or subhalos lack the arrays. By default the names are those of all arrays in the files. A missing file is an IOError. For Gadget-4 a catalogue without any entries is a ValueError, for P-Gadget3 it gives empty arrays.", "quantifier": "all numbers of files, all contents, byte orders, id and float sizes, file systems, directory names without %, snapshot numbers, lists of different names", "why_tests_cant": "Empty files, missing files and mixed byte orders are rare in test data, and a file left out only makes arrays shorter.", "anchors": ["python/virgo/formats/subfind_gadget4.py:GroupCatalogue", "python/virgo/formats/subfind_pgadget3.py:GroupCatalogue", "python/virgo/util/read_multi.py:read_multi"]}
{"id": "C85", "title": "The scripts which look for missing files report exactly the incomplete outputs", "statement": "check_pgadget3_run and check_eagle_run give one line for each type of file for which some snapshots are not complete, with the number of these snapshots and of all snapshots checked, and no other lines. Complete means that the first file can be read and all files it promises are listed in its directory; for EAGLE this directory is the only one which matches. The cache of redshifts does not change the result. For EAGLE this needs headers to be readable or an IOError; otherwise the script stops.", "quantifier": "all directory contents, headers, numbers of snapshots and snipshots, first numbers, steps, base names without slashes", "why_tests_cant": "The cache and the two counts depend on the order of all checks; tests have complete directories.", "anchors": ["consistency_check/eagle/check_eagle_file_presence.py:check_eagle_run", "consistency_check/eagle/check_eagle_file_presence.py:check_dir", "consistency_check/eagle/check_eagle_file_presence.py:eagle_filename", "consistency_check/p-gadget3/check_pgadget3_file_presence.py:check_pgadget3_run", "consistency_check/p-gadget3/check_pgadget3_file_presence.py:check_dir", "consistency_check/p-gadget3/check_pgadget3_file_presence.py:pgadget3_filename"]}
{"id": "C86", "title": "The number of a file is put into its name", "statement": "substitute_file_nr replaces every field %(file_nr)... of a name without fields {file_nr...}, and every field {file_nr...} of a name without fields %(file_nr)..., by the formatted number and keeps everything else; names without fields are kept. A name with fields of both kinds raises RuntimeError. A name which contains a percent sign and fields in braces never gives a result, so such directories can not be used.", "quantifier": "all names made of text without percent signs and braces and any number of fields, with any flags, width, precision; for the defect all strings", "why_tests_cant": "Tests use one template; the function guesses the style by comparing two results with the template.", "anchors": ["python/virgo/mpi/parallel_hdf5.py:substitute_file_nr"]}
{"id": "C87", "title": "The table made from tree files contains the trees and a correct numbering", "statement": "make_dtrees_table writes one record for each halo of all files, with every array of the trees and the columns mBranch, depthFirst, endMainBranch and lastProgenitor, and a script which defines these columns. mBranch is the largest total mass of a chain of progenitors, depthFirst numbers halos from 1, the halos of a tree and of a main branch are those whose numbers are between depthFirst and lastProgenitor or endMainBranch, and progenitors are in descending order of mBranch. A cycle is an AssertionError and a missing array a KeyError, with nothing written.", "quantifier": "all sets of files whose arrays agree, all trees with unique indexes and descendants at later times, any sorting order among equal values, any initial memory", "why_tests_cant": "The result depends on six functions which pass arrays to each other; a swapped array is only seen if the table is compared with the trees.", "anchors": ["python/virgo/database/make_dtrees_table.py:make_dtrees_table", "python/virgo/database/make_dtrees_table.py:add_depth_first_index"]}
{"id": "C88", "title": "The C library for IDL loads group catalogues and hash tables as they are", "statement": "The number of groups and the smallest size of a group are those of the files. The numbers of small groups and of particles are the sums over all files. The catalogue has each group of each file once with its length, file and number, in descending order of the length, for any result which C allows for qsort. The hash table has the first particle and the file of every cell, and the last cell and the number of particles of every file. The numbers of particles in equal parts of the table are those of the cells; left-over cells are not counted. A first or last file without cells makes loading the table fail.", "quantifier": "all files with the layout of the format in either byte order of the machine, all numbers of files, groups, cells and particles, all initial contents of the output arrays, any sorting order among equal lengths", "why_tests_cant": "Needs the files of the Millennium simulation and IDL; files without groups or cells and equal lengths are rare.", "anchors": ["examples/millennium/idl/IdlGroupLib/groupstuff.c:get_group_catalogue", "examples/millennium/idl/IdlGroupLib/groupstuff.c:get_hash_table", "examples/millennium/idl/IdlGroupLib/groupstuff.c:get_particles_in_cubes"]}
{"id": "C89", "title": "The C library for IDL finds the positions of the particles of a group", "statement": "get_group_coordinates returns, for a group whose particles are in the cells named by their IDs, the positions of exactly the particles with these IDs in ascending order of the number in the low 34 bits, relative to their centre of mass. The relative positions add up to zero, each plus the centre is a periodic image of the position of the particle, the images are those nearest to the first particle, the centre is inside of the box, and the table of files is unchanged. If a file of the snapshot is missing the call fails and leaves all numbers of files in the caller's table doubled and the cells of the group flagged. If an ID is not found and is larger than all others, the code reads after the end of an array.", "quantifier": "all snapshots and group files with the layout of the format in either byte order of the machine, all groups with fewer than 2^29 particles in their cells, any positions inside of the box in exact arithmetic, any result which C allows for qsort", "why_tests_cant": "Needs the files of the Millennium simulation and IDL; the matching by sorted IDs with packed indexes and the cleanup after a failure depend on cases which small tests do not reach.", "anchors": ["examples/millennium/idl/IdlGroupLib/groupstuff.c:get_group_coordinates", "examples/millennium/idl/IdlGroupLib/groupstuff.c:fof_periodic_wrap", "examples/millennium/idl/IdlGroupLib/groupstuff.c:fof_periodic", "examples/millennium/idl/IdlGroupLib/groupstuff.c:id_sort_compare_key"]}
{"id": "C90", "title": "The C library for IDL finds the particles around a sphere", "statement": "If the particles of a snapshot are in the cells of their positions along the Peano-Hilbert curve, get_spherical_region_count returns the number of particles in a list of cells and get_spherical_region_coordinates their positions relative to the centre of the sphere (periodic images at most half a box away in each coordinate), in the same order and with the rest of the array unchanged. Every cell which has a particle in the sphere or in one of its periodic images is in the list, and each cell is there once if and only if 2k+1 cells fit along a side of the box, where k is one more than the number of whole cells in the radius. If they do not fit and no cell is empty, more particles are counted than there are in the snapshot (defect; always so for two cells along a side).", "quantifier": "all snapshots with the layout of the format in either byte order of the machine with 8^b cells for b = 1..10, all spheres with the centre in the box and radius of at most 2^30 cells, any positions in exact arithmetic", "why_tests_cant": "Needs the files of the Millennium simulation and IDL; a cell which is left out or read twice depends on how radius, position and periodic sides of the box fall on the grid.", "anchors": ["examples/millennium/idl/IdlGroupLib/groupstuff.c:get_spherical_region_count", "examples/millennium/idl/IdlGroupLib/groupstuff.c:get_spherical_region_coordinates", "examples/millennium/idl/IdlGroupLib/groupstuff.c:peano_hilbert_key"]}
{"id": "C91", "title": "Wrapped SWIFT files give every dataset the units of the file's metadata", "statement": "A file with complete metadata opens in any mode; its registry has the base units, a, h, swift_mpc, swift_msun and newton_G with the values of the metadata. Without the constants or the cosmology there is a KeyError, without the group Units a UnitParseError. Any sequence of keys finds the wrapper of what h5py finds with them, with the registry, units, mode, cosmology and expansion factor of the file, and nothing else; g['a/b'] is g['a']['b']; iteration and items list each member of a group once with its wrapper. Reading gives the selected numbers with the exponents of the dataset's attributes and a value in CGS units equal to the conversion factor of the attributes within 1e-9, with the power of a in the unit (soap) or beside it (swiftsimio). An unknown mode is a ValueError only when data are read. `i in dataset` tests whether i is an index, and iteration over a dataset drops its units (defect).", "quantifier": "all HDF5 files (finite trees without links) with metadata, all metadata paths, all sequences of keys with any slashes and dots, all datasets, attributes, selections and modes, in exact arithmetic for any power function", "why_tests_cant": "Needs SWIFT and SOAP output and the packages unyt and swiftsimio; a wrapper which loses one of its five attributes fails only for the keys and the mode which use it.", "anchors": ["python/virgo/formats/swift.py:soap_unit_registry_from_snapshot", "python/virgo/formats/swift.py:SwiftBaseWrapper", "python/virgo/formats/swift.py:SwiftDataset", "python/virgo/formats/swift.py:SwiftGroup", "python/virgo/formats/swift.py:SwiftFile", "python/virgo/formats/swift.py:SwiftSnapshot", "python/virgo/formats/soap.py:SOAPCatalogue"]}
{"id": "C92", "title": "Classes for particular simulations pass their arguments on", "statement": "Arguments of a call are bound to parameters by position, by name or by default; too many, unknown, repeated or missing ones are a TypeError. Every class of millennium.py, millennium2.py and coco.py with a constructor of its own gives the base class the same value for every parameter as it got (or its own default), and so opens sub_tab and sub_ids files of either byte order with the sizes of IDs and of floating point numbers asked for (8 and 4 if not asked for); other sizes are a ValueError, formats not implemented a NotImplementedError. mxxl.SubTabFile passes parameters which its base class does not have: every call is a TypeError (defect).", "quantifier": "all calls with any positional and keyword arguments, all files with the layout of the formats of C69", "why_tests_cant": "Each class only fails for calls which use the parameter that is passed on wrongly; the files are those of large simulations, and no test opens an MXXL sub_tab file.", "anchors": ["python/virgo/sims/millennium.py:SubTabFile", "python/virgo/sims/millennium.py:SubIDsFile", "python/virgo/sims/millennium2.py:SubTabFile", "python/virgo/sims/millennium2.py:GroupCatalogue", "python/virgo/sims/millennium2.py:GroupOrderedSnapshot", "python/virgo/sims/coco.py:SubTabFile", "python/virgo/sims/coco.py:GroupCatalogue", "python/virgo/sims/coco.py:GroupOrderedSnapshot", "python/virgo/sims/mxxl.py:SubTabFile"]}
{"id": "C93", "title": "Fortran readers return exactly the arrays of the file they name", "statement": "The Fortran readers of group_tab, group_ids, sub_tab and sub_ids files look at <dir>/snapdir_NNN/group_tab_NNN.M and so on, where the last number has as many digits as it needs, or, for the directory MILLENNIUM, at the disk which holds the file; blanks at the end of the directory do not matter. They return counts and arrays exactly if the file begins with the bytes of these, in the byte order of the compiler, and so get the same values as the layouts of the Python classes (C47) contain; readsubhalos puts entry i of each array in component of halo i. readheader and readfile return the header, numbers, positions, velocities, IDs and hash table of a snapshot. With associated pointers or without the file the program stops. File numbers of four digits are written as asterisks, so that all mean the same file (defect).", "quantifier": "all files, all byte orders, all directories without inner blanks, all outputs and file numbers up to 999", "why_tests_cant": "A displacement which is wrong by one array still returns plausible numbers; needs files of the original simulation with many halos, and large file numbers.", "anchors": ["examples/millennium/fortran/readgroups.f90:readgrouptab", "examples/millennium/fortran/readgroups.f90:readgroupids", "examples/millennium/fortran/readgroups.f90:readsubtab", "examples/millennium/fortran/readgroups.f90:readsubids", "examples/millennium/fortran/readgroups.f90:readsubhalos", "examples/millennium/fortran/readfile.f90:readheader", "examples/millennium/fortran/readfile.f90:readfile", "examples/millennium/fortran/file_path.f90:filepath"]}
{"id": "C94", "title": "Reading a dataset with the Fortran HDF5 wrapper gives exactly the part asked for", "statement": "Whenever read_data returns, the type in the file is compatible with the array (same class and size, or a string with enough room) and the array has exactly the elements of the part (start and count from one, the whole dataset if not given), each at the index which is equal in all dimensions with more than one element, and converted (integers between signed and unsigned as near as possible, strings filled with blanks); all other elements of the array are unchanged. For a part with elements and an array with elements it returns exactly if the types are compatible, the part is inside of the dataset and the array has the same number of dimensions with more than one element, each large enough; otherwise the program ends. A part without elements can only be read if some count is more than one: empty one-dimensional datasets cannot be read (defect). A dataset with one element in some dimension cannot be read into a larger array in this dimension although the README allows it (defect); an array without elements passes the check for single elements and memory outside of it is written (defect); start and count cannot be used for scalars (defect).", "quantifier": "all datasets of up to seven dimensions of any type, all parts, all arrays of any shape and their previous contents", "why_tests_cant": "Needs the HDF5 library and a Fortran compiler; the matching of dimensions by dropping those of size one only shows for shapes with ones and partial reads.", "anchors": ["fortran/hdf5_wrapper/src/read_dataset.inc:read_data"]}
{"id": "C95", "title": "Writing a dataset with the Fortran HDF5 wrapper stores exactly the array in the part named", "statement": "A part of an existing dataset is written exactly if the types are compatible, there is room for it or the dataset can be extended, and the array is large enough; the dataset is then as large as it was and the part needs, the part has the (converted) elements of the array, old elements outside are unchanged and new ones are zero; otherwise the program ends. Existing datasets cannot be written without start and count. A new dataset which can be stored has the size asked for, or the smallest with room for the part, or the size of the array, with the elements of the array in the part and zero elsewhere. What was written is read back for the same type and shape, whatever the array contained before. extensible=.false. makes extensible datasets (defect); empty arrays cannot be written with compression or as extensible datasets (defect), and empty one-dimensional arrays are written but cannot be read again (defect); initial_size larger than the array without start and count ends the program although the README allows it (defect).", "quantifier": "all datasets, types, options (compression, chunk sizes, initial sizes, extensible), parts and arrays of up to seven dimensions", "why_tests_cant": "Needs the HDF5 library and a Fortran compiler; extension in one dimension while the part lies in another, and the fill values, depend on the shapes.", "anchors": ["fortran/hdf5_wrapper/src/write_dataset.inc:write_data", "fortran/hdf5_wrapper/src/read_dataset.inc:read_data"]}
{"id": "C96", "title": "The Fortran HDF5 wrapper always reads the dataset which was named, although it keeps one open", "statement": "After any sequence of calls from the start of the program (open, create, close, read, write, create groups, write attributes; with names which do not start with a blank and have at most 1000 characters), none of which replaces the dataset read last, reading a dataset gives the data which the file of the handle has under this name now, or ends the program if there is none. Opening and creating files return the smallest handle which is not used, change no other handle, and fail exactly if there is no such file, it cannot be written, is open (create) or 1000 files are open; closing frees just this handle. Files change only by creation or through handles not opened for reading only. Writing a dataset creates it (if there is none or with overwrite) or writes a part of it, and leaves all other datasets, groups and attributes of the file unchanged. After a dataset was read and replaced with overwrite, reading it again gives the old data (defect); a blank before the name of the dataset read last gives its data too, whether or not there is such a dataset (defect).", "quantifier": "all files, all sequences of calls of any length with any arguments, all handles", "why_tests_cant": "The dataset left open only matters for particular sequences of calls with several files and handles; a wrong one returns plausible data without any error.", "anchors": ["fortran/hdf5_wrapper/src/hdf5_wrapper.F90:hdf5_open_file", "fortran/hdf5_wrapper/src/hdf5_wrapper.F90:hdf5_create_file", "fortran/hdf5_wrapper/src/hdf5_wrapper.F90:hdf5_close_file", "fortran/hdf5_wrapper/src/read_dataset.inc:read_data", "fortran/hdf5_wrapper/src/write_dataset.inc:write_data"]}
{"id": "C97", "title": "The Fortran HDF5 wrapper creates groups with all parents and stores attributes of any object", "statement": "hdf5_create_group creates a path of at most ten groups and less than 256 characters with all groups along it which do not exist, with or without a slash at the beginning; nothing else changes, and the program ends if one of them is a dataset. A new dataset is written whichever of the groups in its name existed; the missing ones are created. An attribute is written exactly if its object exists and it does not or is to be replaced; it has the type, shape and elements of the array, and all other attributes and objects are unchanged. It is read into the first elements of an array with at least as many elements, and comes back unchanged for the same shape with any handle of the file. hdf5_get_type and hdf5_get_dimensions return type and dimensions of the dataset or attribute. More than ten groups write outside of an array (defect); names with two slashes end the program (defect); names of groups are cut after 256 characters (defect); attributes of the root group only work as //name (defect); the size of arrays is not checked (defect); larger arrays with two dimensions are mixed up (defect, in the README).", "quantifier": "all files, all paths and names, all types, shapes and contents", "why_tests_cant": "Depends on which part of a path exists, on the depth of the path, and on the position of the last slash.", "anchors": ["fortran/hdf5_wrapper/src/hdf5_wrapper.F90:hdf5_create_group", "fortran/hdf5_wrapper/src/write_attribute.inc:write_attribute", "fortran/hdf5_wrapper/src/read_attribute.inc:read_attribute", "fortran/hdf5_wrapper/src/hdf5_wrapper.F90:hdf5_get_dimensions", "fortran/hdf5_wrapper/src/hdf5_wrapper.F90:hdf5_get_type"]}
{"id": "C98", "title": "The Fortran, C and IDL programs for Millennium-2 snapshots find the same particles as the Python class", "statement": "For a snapshot file in Gadget format with n dark matter particles, 64 bit IDs and the byte order of the machine, the Fortran program prints the total number of particles (from its low and high 32 bits), the size of the box and a line for each particle with position, velocity and ID, the C program the same lines, and the IDL program has the same arrays, whatever follows in the file; the Python class has them as datasets. If bytes are missing at the end the Fortran and IDL programs fail, and the C program prints undefined values unless only the last marker is incomplete; the C program rejects a header in the other byte order. Without particles the Fortran and IDL programs fail (defect); IDs with more than 16 digits are printed as stars in Fortran (defect).", "quantifier": "all contents, numbers of particles with records below 2 GB, names, both byte orders, all truncations", "why_tests_cant": "Depends on record markers, truncation at every byte, numbers beyond 32 bits, and on the two byte orders; the programs are not tested.", "anchors": ["examples/millennium2/fortran/read_m2_snapshot_file.f90", "examples/millennium2/c/read_mill2_snapshot_file.c", "examples/millennium2/idl/read_mill2_snapshot.pro", "python/virgo/formats/gadget_snapshot.py:GadgetBinarySnapshotFile"]}
{"id": "C99", "title": "The Fortran and C programs for Millennium-WMAP7 snapshots print all particles in the file", "statement": "For an HDF5 snapshot with n > 0 dark matter particles (n below 2^31, IDs of a signed or unsigned type with at most 16 digits) the Fortran program, with all calls of the HDF5 wrapper, prints a line for each particle with position, velocity and ID, and changes no file; the C program prints the same lines if n is at most 715827882, also for n = 0, with all IDs. For more particles the C program uses memory outside of its arrays (defect); without particles the Fortran program ends with an error (defect); unsigned IDs with more than 16 digits, also those of 2^63 and more which are changed by the conversion, are printed as stars in Fortran (defect).", "quantifier": "all files, all numbers of particles and contents, all names, any initial memory", "why_tests_cant": "Overflow needs files with more than 715827882 particles; the rest depends on combinations of types and sizes.", "anchors": ["examples/millennium-wmap7/fortran/read_mr7_snapshot_file.f90", "examples/millennium-wmap7/c/read_mr7_snapshot_file.c", "fortran/hdf5_wrapper/src/read_dataset.inc:read_data", "fortran/hdf5_wrapper/src/read_attribute.inc:read_attribute"]}
{"id": "C100", "title": "Velociraptor property files with any number of columns and halos are read correctly", "statement": "A properties file of Velociraptor with n column names of 40 bytes and m halos, written on the same kind of machine, is read by velociraptor.PropertiesFile with all numbers of the header, the names of columns as attributes entry000, entry001, ... and the halos as a dataset of m structures, in both settings of ikeepfof, and nothing else; the fields of the structure are the properties one after the other without gaps. Files of runs with gas, stars, black holes or high resolution regions are refused, also files which end before the number of columns. With NumPy 1.24 and later no file can be read since np.int is gone (defect).", "quantifier": "all numbers of columns and halos, all contents, all bytes after the halos", "why_tests_cant": "The offset of the halos depends on a number in the file, and the format of the structure on an option; there are no files in the repository.", "anchors": ["python/virgo/formats/velociraptor.py:PropertiesFile", "python/virgo/util/read_binary.py:BinaryFile"]}
{"id": "C101", "title": "The IDL programs for Millennium files give the contents of the files", "statement": "ReadSubHalos.pro, ReadSingle.pro, ReadMulti_xyz.pro, ReadPotential.pro, ReadTree.pro and Read_TreeAux.pro open the files with the names of the simulation and afterwards their variables have the contents of the files: groups and subhalos, particles of one file, positions of all particles in the order of the files, the potential with the first index the fastest whatever the order of the planes among the files, all halos of all trees with the fields of the C structure, and the auxiliary data of trees. Defects: empty arrays stop the programs, ReadGroups.pro uses an undefined variable, snapshots with 2^31 particles or more (the Millennium simulation) cannot be read by ReadMulti_xyz.pro, whose default names are wrong too, potential files without planes stop ReadPotential.pro, and directories with a blank in the name cannot be used.", "quantifier": "all contents, sizes, numbers of snapshots below 1000, numbers of files, both byte orders of the machine, and all bytes after the parts which are read", "why_tests_cant": "IDL is not free and the repository has no files; sizes of several hundred files and of more than 2^31 particles are out of reach of tests.", "anchors": ["examples/millennium/idl/ReadSubHalos.pro", "examples/millennium/idl/ReadGroups.pro", "examples/millennium/idl/ReadSingle.pro", "examples/millennium/idl/ReadMulti_xyz.pro", "examples/millennium/idl/ReadPotential.pro", "examples/millennium/idl/ReadTree.pro", "examples/millennium/idl/Read_TreeAux.pro"]}
{"id": "C102", "title": "repartition and fetch_elements move whole rows whatever the storage of the array, as long as rows are stored in one piece", "statement": "For distributed arrays with one or two dimensions whose rows are stored in one piece (new arrays, slices of rows, slices of columns without a step, reversed rows), repartition keeps the concatenation of the rows and gives each rank the number of rows asked for, and fetch_elements returns the rows asked for, in a new array or in a C ordered array of the caller. If an array is stored column by column (np.asfortranarray, transposes), with two columns and two rows of the result or more, the received data are lost: reshape((-1,)) of the new array is a copy, and the result is whatever was in its memory (defect). The same holds for a column by column array given as result of fetch_elements (defect). Arrays with a step in the last dimension, such as x[::2] or every second column, stop repartition with ValueError (defect).", "quantifier": "all numbers of ranks, sizes, contents, strides within the classes named, and all contents of uninitialised memory", "why_tests_cant": "Whether memory of a new array happens to have the right contents depends on the allocator; tests of the repository only use new C ordered arrays.", "anchors": ["python/virgo/mpi/parallel_sort.py:repartition", "python/virgo/mpi/parallel_sort.py:fetch_elements", "python/virgo/mpi/parallel_sort.py:my_alltoallv"]}
{"id": "C103", "title": "write_hdf5 makes a faithful copy of a binary file", "statement": "After any sequence of calls on a BinaryFile whose blocks can be read, write_hdf5 makes a HDF5 file in which the datasets are exactly those declared, with their type, shape and values, groups are where the groups are, and attributes of datasets and groups are exactly those declared. This needs dataset paths which are not empty and, with compression, no dimension of zero and chunks below 4 GiB. Two cases are not as intended: attributes of the file itself are never written, and with compression (the default) a file with an empty dataset can not be written.", "quantifier": "every history of declarations, every file, every compression level", "why_tests_cant": "The tree of groups can have any depth and width, and contents are arbitrary.", "anchors": ["python/virgo/util/read_binary.py:BinaryGroup.write_hdf5"]}
{"id": "C104", "title": "MultiFile.read returns the same datasets as reading each file", "statement": "For any number of ranks and files, MultiFile.read gives every rank a dict (a list with unpack=True, one array for a single name) with the datasets asked for: over the ranks in order the elements are those of all files in order, with the types of the file in native byte order; the file numbers are those of the files the elements came from; the attributes are those of the first file which has the dataset among the files read by the rank, or among all; and datasets in no file are None on all ranks. Each rank has as many elements as get_elements_per_file says. Three cases are not as intended: return_file_nr given as a string fails with at least as many files as ranks, unpack with file numbers of some of the datasets fails, and other names in return_file_nr are keys only in independent mode.", "quantifier": "every number of ranks and files, all contents of the files (with the same types in all files), all names including repeated ones, all options", "why_tests_cant": "The two ways of reading are chosen by the numbers of ranks and files, and tests use few of these.", "anchors": ["python/virgo/mpi/parallel_hdf5.py:MultiFile.read", "python/virgo/mpi/parallel_hdf5.py:MultiFile._read_independent", "python/virgo/mpi/parallel_hdf5.py:MultiFile._read_collective"]}
{"id": "C105", "title": "MultiFile.write gives each output file its part of each array", "statement": "For any number of ranks and files and every mode of opening, MultiFile.write with the numbers of elements of get_elements_per_file writes to each output file, in the group asked for, exactly its part of each of the arrays over the ranks, with the type, shape and attributes of the array. Datasets which were in the file stay as they were (mode r+ and a), and other files do not change. This needs different names of output files and datasets which do not exist. Writing what MultiFile.read returned makes a copy with the same rows in every file. A list of names of the wrong length is a ValueError.", "quantifier": "every number of ranks and files, every number of datasets, all contents of arrays and of existing files", "why_tests_cant": "The two ways of writing are chosen by the numbers of ranks and files, and offsets within arrays accumulate over files and ranks.", "anchors": ["python/virgo/mpi/parallel_hdf5.py:MultiFile.write", "python/virgo/mpi/parallel_hdf5.py:MultiFile._write_independent", "python/virgo/mpi/parallel_hdf5.py:MultiFile._write_collective"]}
{"id": "C106", "title": "compress_dcpl gives a property list which HDF5 accepts", "statement": "For a property list without chunks and filters, compress_dcpl sets chunks of at most the given number of rows and of the full size in other dimensions and exactly the filters asked for, and keeps the other properties; HDF5 accepts the result exactly if a chunk is below 4 GiB. Without compression, and for HDF5 before 1.12.0, nothing changes. Cases not as intended: with the default chunk size a dataset with at least 8388608 rows of at least 512 bytes is refused, chunks of zero rows are refused, the property list of the caller is dropped for empty datasets, and chunks of the caller larger than the dataset of one of the files are refused.", "quantifier": "all shapes, all property lists, all options", "why_tests_cant": "Datasets of the sizes at which the limit is reached are too large for tests.", "anchors": ["python/virgo/mpi/parallel_hdf5.py:compress_dcpl"]}
{"id": "C107", "title": "MultiFile finds all files and gives each to a rank", "statement": "For any number of ranks, MultiFile(...) gives every rank the same names and numbers of files: with a format string those with numbers below the number of files found in the attribute or dataset of the first file, or the numbers given as file_idx; with a sequence of names those names, with their places as numbers. Every file is read by some rank, and files of a rank come before those of the next. Cases not as intended: if the number of files is not found, the first rank raises an exception and the others wait forever; file_idx is ignored with a sequence of names; and an empty set gives ZeroDivisionError.", "quantifier": "every number of ranks and files, all names", "why_tests_cant": "Whether other ranks wait forever can not be decided by a test that ends.", "anchors": ["python/virgo/mpi/parallel_hdf5.py:MultiFile.__init__"]}
{"id": "C108", "title": "The Fortran programs write each particle of each group and subhalo once", "statement": "readfofgroups and readgroupsexample find the particles of the groups and subhalos of a file in a snapshot of any number of files: each particle of a group gives one row with the number of the group and the coordinates which the snapshot has for this ID, in the order of the file of IDs. If an ID is not in the cells of the snapshot the program stops. Not as intended: a file without groups makes the program fail in readregion.", "quantifier": "every snapshot of any number of files and cells, all groups, both byte orders", "why_tests_cant": "Results depend on cells, offsets and IDs of all files, and sorting and matching must be correct for all orders of IDs.", "anchors": ["examples/millennium/fortran/readfofgroupsexample.f90", "examples/millennium/fortran/readgroupsexample.f90"]}
{"id": "C109", "title": "readregionexample writes exactly the particles in a box", "statement": "For every snapshot with 8^bits cells, 0 < bits <= 10, whose particles are in the cells of their coordinates, readregionexample writes coordinates of those particles between the limits, all of them and no others, in the order of the snapshot. Not as intended: if the cells are empty the program fails; with a single cell the key function shifts by a negative number.", "quantifier": "every snapshot, all limits, any monotone rounding of coordinates to cells", "why_tests_cant": "Needs the Peano-Hilbert key of all cells and all positions of limits relative to cells.", "anchors": ["examples/millennium/fortran/readregionexample.f90"]}
{"id": "C110", "title": "readsubhalosexample and readfileexample write the rows of their files", "statement": "readsubhalosexample writes one row for each subhalo of the file and one for each halo with subhalos, with the position of the first subhalo of this halo; it fails if the index of the first subhalo is not in the file. readfileexample writes IDs and coordinates of particles 0, 10, 20, ... of a snapshot file.", "quantifier": "every file of the format, both byte orders, every number of halos, subhalos and particles", "why_tests_cant": "Files with other indexes or numbers of particles than the tested ones.", "anchors": ["examples/millennium/fortran/readsubhalosexample.f90", "examples/millennium/fortran/readfileexample.f90"]}
{"id": "C111", "title": "plot_fof_group finds the particles of a group", "statement": "For every snapshot sorted by cell and every group which is not empty, plot_fof_group reads the cells of the particles of the group and finds for each ID the position and velocity which the snapshot has for it, in the order of the file of IDs. Whatever the files contain, if the program goes on, each position belongs to a particle with the wanted ID; otherwise it stops with an error.", "quantifier": "every snapshot of any number of files and cells, all groups, any answer of np.argsort", "why_tests_cant": "Results depend on cells, offsets and IDs of all files, and on the unspecified order of np.argsort.", "anchors": ["examples/millennium/python/plot_fof_group.py"]}
{"id": "C112", "title": "check_units computes mean position, velocity and angular momentum of each subhalo", "statement": "If all particles of subhalos are in the snapshot and all subhalos have particles, the programs check_units.py for both simulations compute for each subhalo the mean of positions (of the copies next to one of its particles), the mean of velocities in physical units and the angular momentum per mass relative to the means, whatever the order of particles and of equal values in np.argsort. If particles of a subhalo are less than half a box apart, the choice of the particle and the boundaries of the box do not matter. Not as intended: IDs which are not in the snapshot are not noticed, the last particle of the snapshot is used for them; the Millennium program keeps 30 bits of IDs instead of 34.", "quantifier": "all particles, subhalos, boxes and scale factors in every ordered field; any number of files", "why_tests_cant": "All positions relative to boundaries of the box, all orders of particles and unspecified orders of np.argsort.", "anchors": ["examples/millennium/python/check_units.py", "examples/millennium2/python/check_units.py", "python/virgo/util/ranges.py", "python/virgo/util/match.py"]}
{"id": "C113", "title": "write_wrapped_text writes all words of a message in lines of limited length", "statement": "For every text, width n and indentation with n > indent + 2, write_wrapped_text stops and every line has at most n-2 characters; lines after the first are indented; the letters of the lines are the letters of the text in the same order, and words which fit into a line are not broken. A text which fits is one line. hdf5_abort writes the message this way and then stops. Not as intended: if n is at most indent + 2 and the text does not fit on one line, the loop never ends.", "quantifier": "every text of any length, every width and indentation", "why_tests_cant": "All positions of blanks relative to ends of lines, and texts of any length.", "anchors": ["fortran/hdf5_wrapper/src/hdf5_wrapper.F90"]}
{"id": "C114", "title": "Lists of datasets, groups and attributes are complete and without repetition", "statement": "For every well-formed file, every group (also the root) and every order in which the library numbers its objects, hdf5_list_datasets and hdf5_list_groups return the number of datasets (groups) directly in this group and, in an array which is large enough, the name of each of them once; each can be opened by group name, slash and this name. hdf5_list_attributes does the same for attributes of groups and datasets. If the group or object does not exist the program is aborted. Not as intended: names which are longer than elements of the array are cut without any message.", "quantifier": "all files, groups, names and orders; any number of objects", "why_tests_cant": "Orders of objects in HDF5 files depend on the history of the file; a test has only some of them.", "anchors": ["fortran/hdf5_wrapper/src/hdf5_wrapper.F90"]}
{"id": "C115", "title": "The IDL programs plot the cumulative mass function of groups", "statement": "For every set of group tables, show_massfunc.pro plots one point per group of the catalogue, and each point (s, c) is on the step of the cumulative mass function at s: more than the number of groups with more than s particles and not more than the number of groups with at least s particles. get_groupcount_below_minlength.pro plots in addition, for every size k from 1 up to the smallest size in the catalogue, the number of all groups with at least k particles, and prints the numbers of particles in groups of the catalogue and in all groups. Not as intended: if the smallest groups in the catalogue have one or two particles, the loop misses its end and the program stops with an index out of range.", "quantifier": "all numbers of files, groups and sizes; anything qsort may return for groups of equal size", "why_tests_cant": "All sizes of groups and sizes of the histogram; the order of equal elements after qsort is not specified.", "anchors": ["examples/millennium/idl/IdlGroupLib/show_massfunc.pro", "examples/millennium/idl/IdlGroupLib/get_groupcount_below_minlength.pro", "examples/millennium/idl/IdlGroupLib/groupstuff.c"]}
{"id": "C116", "title": "The IDL programs find the centre of a group with shrinking spheres and plot its circular velocity", "statement": "For every list of particles of a group, if there are fewer than nmin (15 or 25) particles at any one point, show_profile.pro and plot_profile_vmax.pro end. The centre is that of a sequence of spheres: the first one is around the first particle and up to the most distant one; each next one has 0.9 times the radius and is around the mean of the particles inside the one before; the last one has fewer than nmin particles. show_profile.pro plots one point (r, sqrt(M/r)) for each particle of the group, in order of r, where M counts the particles which are nearer, the particle itself and perhaps others at the same distance. plot_profile_vmax.pro does this for all particles which are less than the radius of the group away from the centre, whether they belong to the group or not, and stops with an index out of range if there are none.", "quantifier": "all lists of positions; all answers of sort() for equal distances; any ordered field which is archimedean, with a square root", "why_tests_cant": "The number of steps of the loop and the sequence of spheres depend on all positions; ties in sort() are not specified.", "anchors": ["examples/millennium/idl/IdlGroupLib/show_profile.pro", "examples/millennium/idl/IdlGroupLib/plot_profile_vmax.pro"]}
{"id": "C117", "title": "plot_profile_dens.pro finds R200 but adds 0, 1, 2, ... to the numbers of particles in bins", "statement": "For every list of particles, the program takes for R200 the largest distance (in physical units) of a particle within which the mean density of all particles is at least 200 times the critical density, and M200 = 200 rhocrit 4 pi/3 R200^3; it stops with an index out of range if no particle is at such a distance. Not as intended: the array for the numbers of particles in bins of log r starts as lindgen(BINS), so the number in bin b is too large by b.", "quantifier": "all lists of positions, particle masses, densities and expansion factors", "why_tests_cant": "R200 depends on all distances, and equal distances are in any order; a test of the shape of the plotted profile may not see small excesses.", "anchors": ["examples/millennium/idl/IdlGroupLib/plot_profile_dens.pro"]}
{"id": "C118", "title": "compute_rvmax.py computes the largest circular velocity of a subhalo and its radius", "statement": "For every group and subhalo, Vmax is the largest value over the particles of the subhalo of the circular velocity at their distance from the centre of the subhalo in the periodic box, from the mass of the other particles up to this distance (zero at the centre itself), and RVmax is the smallest distance (in physical units) where it is reached. This does not depend on the order in which argsort puts particles at equal distances. Without particles the program stops with ValueError.", "quantifier": "all lists of positions and subhalo numbers, box sizes, masses and expansion factors; all answers of argsort", "why_tests_cant": "Ties in argsort and in argmax, and positions at any place of the periodic box.", "anchors": ["examples/millennium2/python/compute_rvmax.py"]}
{"id": "C119", "title": "PlotSpectrum.pro bins a power spectrum into the shortest bands with enough modes and width", "statement": "For every table with positive k and counts which are not negative, the points of a binned spectrum are those of consecutive bands, from the first row on: each band is the shortest sequence of rows with at least 140 modes and a range of log k of at least MinDlogK; rows at the end which do not make a band are left out. The power of a point is the mean over modes, corrected with the factors of the row at the mean position, which is in the band. If k increases there are at most 180 points for the first table. The program stops if there is no band. For tables of equal size it plots points of the second table for 0.01 <= k < 5 and of the first one for 5 <= k <= 200, with error bars which do not reach below zero, and the linear spectrum continued as a power law. Not as intended: both loops use the number of rows of the second table. If the first table is longer, its last rows are not used; if it is shorter, its last row counts several times.", "quantifier": "all tables of any size, any increasing function as logarithm", "why_tests_cant": "The bands depend on all rows; tables used in tests have the same size.", "anchors": ["examples/millennium/idl/PlotSpectrum.pro"]}
{"id": "C120", "title": "The Python readers find the same snapshot files as the Fortran programs", "statement": "For every output up to 63 and every file number, cosma_file_path gives for each of the five kinds of files the place in the data store of the Millennium simulation where the Fortran programs look for it. For every base directory, open_file of a Millennium snapshot opens basedir/snapdir_NNN/basename_NNN.F, or the file in the data store if basedir is COSMA. Different outputs or file numbers give different names. The readers for P-Gadget3 and Gadget-4 use the same names for snapshots, and groups_NNN for groups.", "quantifier": "all names of directories and files, all outputs and file numbers", "why_tests_cant": "The names of 14 discs depend on the remainder of a sum; tests would need all files of the store.", "anchors": ["python/virgo/formats/subfind_lgadget2.py", "python/virgo/formats/subfind_pgadget3.py", "python/virgo/formats/subfind_gadget4.py", "examples/millennium/fortran/file_path.f90"]}
{"id": "C121", "title": "The tests of sorting, repartitioning and unique values pass for all arrays and detect wrong results", "statement": "For every number of ranks and every distributed array, not only the random ones, parallel_sort passes the checks of run_parallel_sort, repartition those of its tests for every choice of destinations, and parallel_unique those of test_unique. Conversely, whatever a sort function returns (with the right lengths), the checks of run_parallel_sort pass if and only if the result is the sorted permutation of the input and the index reproduces it; the same holds for run_large_parallel_sort, which never gathers the array, if no rank is empty. Not as intended: with more than one rank, run_large_parallel_sort fails for a correct result if a rank has no elements; the tests of repartition accept a function which moves nothing; test_unique does not look at the counts, and accepts an empty result if there is only one value.", "quantifier": "all distributed arrays over any number of ranks, all results which a sort function could return", "why_tests_cant": "A test tries one random array at a time, and can not tell which wrong programs it would let through.", "anchors": ["python/virgo/mpi/test_parallel_sort.py", "python/virgo/mpi/parallel_sort.py"]}
{"id": "C122", "title": "The tests of bin counts, matching and message exchange pass for all arrays", "statement": "For every number of ranks and every array of values below the maximum, with or without weights, parallel_bincount passes run_parallel_bincount. make_distributed_array shuffles: each rank gets its number of elements, and the combined array is a permutation of consecutive integers repeated as requested. Whatever the random numbers are, run_parallel_match passes: parallel_match agrees with the serial match, for any order np.argsort may give. run_sendrecv_test pairs each two ranks in exactly one pass of its loop, and each pass ends with the expected arrays for every chunk size and every order of events.", "quantifier": "all arrays and random numbers, all numbers of ranks, chunk sizes and schedules", "why_tests_cant": "A test tries one random array and one schedule at a time.", "anchors": ["python/virgo/mpi/test_parallel_sort.py", "python/virgo/mpi/parallel_sort.py", "python/virgo/util/match.py"]}
{"id": "C123", "title": "The test of the group index passes for all random numbers with enough IDs and detects wrong results", "statement": "Whatever the random numbers are, make_random_lengths_and_offsets distributes the groups over the ranks in order, with the number of groups chosen for each rank, and the offset of a group is the sum of the lengths of the groups before it. If there are at least as many particle IDs as ranks (or the last rank gets one), the test of group_index_from_length_and_offset passes for every choice of random numbers, and for any other function with results of the right length it passes if and only if the group numbers, and the ranks in the group if wanted, are those of particles stored group by group. Not as intended: np.bincount has the number of IDs as minlength instead of the number of ranks, so with fewer IDs than ranks, none of them on the last rank, the test ends with an IndexError.", "quantifier": "all group lengths, distributions of groups and IDs, all numbers of ranks, all results which a function could return", "why_tests_cant": "A test tries one set of random numbers at a time, and can not tell which wrong programs it would let through.", "anchors": ["python/virgo/mpi/test_util.py", "python/virgo/mpi/util.py"]}
{"id": "C124", "title": "The Fortran wrapper has one routine for each type and rank, which looks at all dimensions", "statement": "For each of the five types and each rank from 0 to 7 the preprocessor makes exactly one routine to read datasets, one to write them, and one each for attributes, and NDIMS is the number of dimensions of the array; so reading and writing through the generic names is what C94 to C96 describe. Not as intended: NDIMS is 2 in write_7d_integer4_array and write_7d_integer8_array. An array of integers with seven dimensions is written exactly as the array with two dimensions which has the elements of its first plane: all other elements are lost without a message, two arrays which differ only there give the same file, and the dataset can not be read to an array of the shape which was written if any of the other dimensions has more than one element.", "quantifier": "all arrays of all types and ranks, all options, regions, files and states of the wrapper", "why_tests_cant": "The tests of the wrapper do not use arrays of seven dimensions; the proof covers the complete table of routines and every array.", "anchors": ["fortran/hdf5_wrapper/src/write_dataset_preprocessor.inc", "fortran/hdf5_wrapper/src/read_dataset_preprocessor.inc", "fortran/hdf5_wrapper/src/write_attribute_preprocessor.inc", "fortran/hdf5_wrapper/src/read_attribute_preprocessor.inc", "fortran/hdf5_wrapper/src/hdf5_wrapper.F90"]}
{"id": "C125", "title": "The tests of parallel_hdf5 pass for all arrays and sets of files and detect wrong results", "statement": "The tests of collective_read, collective_write, MultiFile.read and of writing back what was read pass for every array and every set of files which they could make, on every number of ranks. MultiFile.read raises RuntimeError on all ranks whenever two files have the dataset with different types, in both modes, whichever files they are and even if other files do not have it, so the tests with inconsistent types pass for every choice of these files. The comparison after writing back is exact. The other comparisons accept a result if and only if it is correct, provided that the two arrays have the same number of rows or neither has exactly one. Not as intended: an array of one element is repeated by NumPy in a comparison, so if there is one element in total the tests pass although it was lost or read any number of times.", "quantifier": "all arrays, sets of files, missing datasets, types, numbers of ranks, all results which a function could return", "why_tests_cant": "A test tries one set of random numbers on one number of ranks, and can not tell which wrong programs it would let through.", "anchors": ["python/virgo/mpi/test_parallel_hdf5.py", "python/virgo/mpi/parallel_hdf5.py"]}
{"id": "C126", "title": "Datasets written in several calls have what was written last, and pieces of an array give the array", "statement": "Any number of calls of hdf5_write_data for parts of a dataset, in any order and with any overlaps, end with a dataset as large as the largest part needs; each element is the one which was written there last, or the one which was there before, or zero if it is new and was not written. This is so for datasets which exist and for those which are created by the first call, with or without initial_size. Calls of the right form end the program exactly if one of the parts has no room. If an array is cut into pieces in any way, and they are written in any order to a new extensible dataset, it has the shape and elements of the array in the end. In particular the loops of test_extend.f90 over blocks of a one dimensional array and over rows of a two dimensional array give these arrays, for all sizes.", "quantifier": "all ranks up to seven, types, datasets, sequences of parts, arrays and ways to cut them, sizes and numbers of blocks and rows", "why_tests_cant": "The test program writes a few fixed arrays, and the results have to be looked at by eye.", "anchors": ["fortran/hdf5_wrapper/test/test_extend.f90", "fortran/hdf5_wrapper/src/write_dataset.inc"]}
{"id": "C127", "title": "show_group.pro shows the particles of the third to sixth largest groups, getcubes.pro counts particles in parts of the box", "statement": "For every catalogue with at least six groups and every snapshot whose particles can be found by their IDs, show_group.pro succeeds and shows four groups: the one with number k (2 to 5) has at most k groups with more particles and more than k groups with at least as many, and what is plotted are the positions of the particles with the IDs of this group, relative to their centre of mass. getcubes.pro gives the numbers of particles in as many equal parts of the table of cells as there are files, followed by zeros; if the number of files divides the number of cells each particle is counted once. Not as intended: with less than six groups show_group.pro stops, and with more than 512 files the library writes behind the end of the array of getcubes.pro.", "quantifier": "all catalogues, snapshots, numbers of files and cells, any order of groups of the same size which qsort may choose", "why_tests_cant": "The programs have paths of one simulation, and make plots.", "anchors": ["examples/millennium/idl/IdlGroupLib/show_group.pro", "examples/millennium/idl/IdlGroupLib/getcubes.pro", "examples/millennium/idl/IdlGroupLib/groupstuff.c"]}
{"id": "C128", "title": "read_sub_tree.pro and read_group_m200.pro find a subhalo or a group with a table of all of them", "statement": "For every table whose row is right (it names a file, a subhalo or group of this file and, for subhalos, a halo of a tree with the same most bound particle), read_group_m200.pro prints the mass of the group twice, its number of particles and, if the group has subhalos, its own number as the group of the first subhalo; with masses in descending order at most igrp groups are more massive. read_sub_tree.pro prints the most bound particle of the subhalo from the tree. Not as intended: the number from the catalogue is taken with the number of the row in the whole table instead of the number of the subhalo in its file, so that both numbers agree exactly if these are the same, and the check fails or the program stops for every file after the first one with subhalos; read_group_m200.pro stops for a group without subhalos at the end of a file.", "quantifier": "all tables, snapshots below 1000, rows, catalogues and trees", "why_tests_cant": "The tables and the procedures for groups, subhalos and trees which the programs call are not in the repository.", "anchors": ["examples/millennium/idl/read_sub_tree.pro", "examples/millennium/idl/read_group_m200.pro"]}
{"id": "C129", "title": "Binary files behave like mappings and their datasets like sequences, and close() closes what its members hold open", "statement": "After every sequence of declarations, iterating over the file or any of its groups gives each name once, as many as len says, and exactly those names without slashes which can be looked up. For every dataset with dimensions that can be read, iteration gives len rows, each with all elements of the other dimensions, which together are the dataset; a scalar raises TypeError. After every sequence of openings, accesses, closings and deallocations, close() (and so the end of a with statement) leaves the file closed exactly if it was closed before or if a dataset of the file, or an attribute of the file or of a group, holds it; other files are left alone. Not as intended: attributes of datasets and blocks of read_and_skip are not closed, so that a file of which nothing else was read stays open.", "quantifier": "all sequences of declarations, shapes, files, and all histories of the cache of open files", "why_tests_cant": "Which of the blocks of a file has opened it depends on the whole history.", "anchors": ["python/virgo/util/read_binary.py:BinaryGroup", "python/virgo/util/read_binary.py:BinaryDataset", "python/virgo/util/read_binary.py:BinaryAttrs"]}
{"id": "C130", "title": "mpi_errchk makes a program stop on all ranks if one of them raises an exception", "statement": "For every number of ranks, every number of collective calls on each rank before its function ends, and every interleaving: a run has a bounded number of steps. If the ranks whose functions return make the same number of calls and the others at most as many, a program with the decorator never hangs: when nothing more can happen it was aborted if some rank raised an exception derived from Exception or was interrupted, and otherwise all ranks have ended. Without the decorator every run in which a rank makes less calls than another ends with a rank that waits for ever. SystemExit is not caught, so that sys.exit() on some ranks can still make the others wait.", "quantifier": "all numbers of ranks and calls, all ways in which functions end, all schedules", "why_tests_cant": "Which rank waits for which one depends on timing.", "anchors": ["python/virgo/mpi/errchk.py:mpi_errchk"]}
{"id": "C131", "title": "read_subhalo_catalogue.py prints one line for each subhalo of a snapshot", "statement": "For every number of files, every content of the sub_tab files, in either byte order and whatever follows in a file: the program prints the title and then, for all files in order and all subhaloes of a file in order, the parent halo, the number of particles, the position and the velocity of this subhalo. If a file is missing, the lines for all files before it are printed and the program stops with an error.", "quantifier": "all snapshots, files, contents and byte orders", "why_tests_cant": "Tests have few files of one kind.", "anchors": ["examples/millennium/python/read_subhalo_catalogue.py", "python/virgo/sims/millennium.py:SubTabFile", "python/virgo/formats/subfind_lgadget2.py:SubTabFile"]}
{"id": "C132", "title": "The programs in Python and IDL which read a Millennium-WMAP7 snapshot agree with that in Fortran", "statement": "For every snapshot file with dark matter only: the Python script prints the number of particles in the file, and pos[i,k], vel[i,k] and ids[i] are component k of the position and velocity and the ID of particle i, with the types in the file, also without particles and for IDs which the Fortran program cannot print. The IDL script has the same values as pos[k,i], vel[k,i] and ids[i] if there are particles. Line i which the Fortran program prints has the values which both have for i.", "quantifier": "all files, numbers of particles, values", "why_tests_cant": "Order of indices and dimensions is not seen in files with equal dimensions.", "anchors": ["examples/millennium-wmap7/python/read_mr7_snapshot_file.py", "examples/millennium-wmap7/idl/read_mr7_snapshot_file.pro", "examples/millennium-wmap7/fortran/read_mr7_snapshot_file.f90"]}
{"id": "C133", "title": "Data written with the Fortran wrapper of HDF5 is read again after any other calls", "statement": "A dataset of a file is the same after any sequence of calls of the wrapper which do not write to this dataset or make the file anew, whatever they do to other files, datasets, groups and attributes, and however often the file is closed and opened. An array which was written as a new dataset, or in place of an old one, is therefore read again, through any handle of the file. An attribute which was written is read again after any calls which do not write this attribute, replace the dataset which it belongs to, or make the file anew.", "quantifier": "all programs, files, names, arrays, types, sequences of calls", "why_tests_cant": "The test programs write one file, with a few calls in one order.", "anchors": ["fortran/hdf5_wrapper/test/test_write.f90", "fortran/hdf5_wrapper/test/test_read.f90", "fortran/hdf5_wrapper/src/write_dataset.inc", "fortran/hdf5_wrapper/src/read_dataset.inc", "fortran/hdf5_wrapper/src/write_attribute.inc", "fortran/hdf5_wrapper/src/read_attribute.inc", "fortran/hdf5_wrapper/src/hdf5_wrapper.F90"]}
{"id": "C134", "title": "The test programs of the Fortran wrapper of HDF5 pass for all data", "statement": "Whatever numbers and strings test_write.f90 writes, whatever was in the file before, and whatever is in the memory of test_read.f90, neither program fails, and test_read.f90 finds what was written: the scalar, the array with one dimension in one with two, the strings, the whole integer array and four parts of it in the right elements with all other elements unchanged, the attributes, with the new value of the one which was overwritten, the types, and the names of the datasets, groups and attributes, in the order of the HDF5 library. Other files are not changed, and reading changes no file.", "quantifier": "all values, names of the file, contents of memory, sizes of the array with one dimension, orders of names", "why_tests_cant": "The test programs have one set of values, and what is printed is only looked at.", "anchors": ["fortran/hdf5_wrapper/test/test_write.f90", "fortran/hdf5_wrapper/test/test_read.f90", "fortran/hdf5_wrapper/src/hdf5_wrapper.F90"]}
{"id": "C135", "title": "parallel_sort fails on arrays with NaN unless all of them belong on the last rank", "statement": "np.argsort and np.searchsorted put NaN after all numbers, but `!=` is true for NaN and itself. If there are no more NaN than the last rank which has data has elements, parallel_sort puts them there and sorts the array as it should, with a correct index. If there are more, all of them are sent to that rank, which receives more elements than it has room for, and the sort ends with a ValueError.", "quantifier": "all distributed arrays of numbers and NaN, on any number of ranks, with any of them empty", "why_tests_cant": "The tests sort random integers and floating point numbers, none of which is NaN, and whether the sort fails depends on the number of NaN and of elements on the last rank.", "anchors": ["python/virgo/mpi/parallel_sort.py:507-749"]}
{"id": "C136", "title": "Rounding of weights does not change the results of parallel_sort", "statement": "weighted_median and find_splitting_points compute weights, their sum and running totals in double precision. Whatever order np.sum adds numbers in, and whichever way ties are rounded, for fewer than 2^51 elements some element always satisfies wbefore<=0.5 and wafter<=0.5, so that arr[ind][0] does not fail, and the first one has a positive weight. find_splitting_points therefore returns the same values and ranks as with exact weights, after at most as many passes as there are elements, and parallel_sort gives the same arrays, with NaN too. On fewer than 2^40 ranks either side of the median has at most 52 percent of the weight, and the number of passes is at most three times one more than the binary logarithm of the number of elements.", "quantifier": "all lists of weights which are non-negative numbers with 53 bits and of which one is positive; all distributed arrays on fewer than 2^51 ranks; all roundings to a nearest number and all orders of summation", "why_tests_cant": "The running total of the weights may end below or above one, and whether the comparison with 0.5 fails depends on the last bits of the weights; tests use few ranks.", "anchors": ["python/virgo/mpi/parallel_sort.py:351-368", "python/virgo/mpi/parallel_sort.py:386-504"]}
{"id": "C137", "title": "Peano-Hilbert keys of rounded positions are those of the cell or of the next one, but in single precision the edge of the box can be wrapped around", "statement": "peano_hilbert_keys_from_coords divides positions by the size of a cell in the precision of the positions. If the size of the box is a number of that precision, then every position in the box gets the key of a cell in the box, and this is the cell which contains the position, or the next one if the position is below it by at most one part in 2^24 (float32) or 2^53 (float64). Otherwise the keys are the exact ones. If the size of the box is not a number of the precision of the positions, and the size of the cells is rounded down (as for a box of 67.77 in float32), then there is a position in the last cell of the box which gets the key of the first cell.", "quantifier": "all positions in the box, sizes of the box in double precision, numbers of bits per dimension from 1 to 21, precisions of at least 21 bits, and roundings to a nearest number", "why_tests_cant": "Wrong keys need positions which differ from the boundary of a cell in the last bit, and sizes of the box with more bits than the positions.", "anchors": ["python/virgo/util/peano.py:143-171"]}
{"id": "C138", "title": "match and parallel_match find the same as without NaN, unless the first task with data has a NaN: then parallel_match finds nothing", "statement": "Elements of arr1 which are NaN have no match with match and parallel_match. For match, all other elements get the index of an equal element of arr2, or -1 if there is none, also if arr2 contains NaN. parallel_match does the same, with the first equal element, if the NaN in arr2 fit on the last task which has elements of arr2 and this is not the only one. If the only task with elements of arr2 has a NaN, then the smallest element of that task is NaN too, no elements of arr1 are sent to it and the result is -1 for all elements, without a message. If the NaN do not fit on the last task, parallel_match stops with an error. If arr2 has no elements at all, the result is -1 for all elements. With arr2_sorted=True, the result is right if the first task with data has no NaN, and -1 for all elements otherwise.", "quantifier": "all numbers of tasks, distributions and contents of the arrays, ordered types with a largest element (NaN)", "why_tests_cant": "Tests use integers, or floating point numbers without NaN; the wrong result depends on the distribution of the elements over tasks.", "anchors": ["python/virgo/util/match.py:5-65", "python/virgo/mpi/parallel_sort.py:752-877"]}
{"id": "C139", "title": "Integers in files are decoded as two's complement, and IDs with cell numbers are split without loss", "statement": "Four and eight byte integers of binary files and HDF5 files have the value between -2^31 and 2^31-1, or -2^63 and 2^63-1, whose two's complement is stored in the bytes, and unsigned integers have the value of their bits. Numbers which fit into the type of an array are stored with these bytes. In the group files of the Millennium simulation, the 30 most significant bits are the number of a cell, the other 34 bits are an ID below 2^34, and both together give the stored number again.", "quantifier": "all sequences of bytes, all sizes of integers", "why_tests_cant": "Tests use small positive numbers; the smallest negative number and numbers with all 64 bits are not in them.", "anchors": ["python/virgo/util/read_binary.py:264-360", "examples/millennium/fortran/readgroupsexample.f90:78-92", "examples/millennium/fortran/readfofgroupsexample.f90:82-96", "python/virgo/database/make_dtrees_table.py:89-103"]}
{"id": "C140", "title": "parallel_unique returns NaN once if it sorts the data itself, but once per rank for data which are already sorted", "statement": "If the NaN of an array fit on the last rank which has data, then parallel_unique returns each number once, in order, and NaN once as the last one, with the number of occurrences of each, and similar numbers of elements on all ranks if repartition_output is set. If they do not fit, it stops with an error. With arr_sorted=True the results for all numbers other than NaN are the right ones, but each rank which has NaN returns one of them, with the number of NaN on that rank, as NaN is not equal to NaN in the comparisons between ranks. Setting repartition_output only moves the results between ranks.", "quantifier": "all numbers of ranks, distributions and contents of the array, ordered types with a largest element (NaN)", "why_tests_cant": "Tests use integers; the result depends on how NaN are distributed over ranks.", "anchors": ["python/virgo/mpi/parallel_sort.py:880-978"]}
{"id": "C141", "title": "Rounding does not change the cells of regions and positions if the size of the box has few bits, as in the Millennium simulation", "statement": "read_region divides double precision coordinates by the size of a cell. If the size of the box is a number of b bits (7 for 500), then for all regions whose coordinates are at most 2^(53-b)-1 cells away from the origin, also negative ones, the results are those of exact arithmetic: the particles in the cells which the region or its periodic images meet. In the same way, the Peano-Hilbert keys of positions in the box are the exact ones if b plus the number of bits per dimension is at most the number of bits of the type of positions (24 or 53).", "quantifier": "all snapshots with consistent hash tables, call histories, regions, positions, sizes of the box, and roundings to a nearest number", "why_tests_cant": "Differences could only appear for coordinates which differ from the boundary of a cell in the last bit.", "anchors": ["python/virgo/formats/subfind_lgadget2.py:456-475", "python/virgo/util/peano.py:143-171", "examples/millennium/python/read_region.py:12-22"]}
{"id": "C142", "title": "reduce_elements and parallel_bincount with floating point numbers and other operators which depend on the order", "statement": "For any operator, also one which is not commutative or associative, reduce_elements applies the updates for each element one by one in the order of the ranks, and those of the same rank in some order; ufuncs have the element as first argument and MPI operators have it as second one. If no rank has an index twice the result is that of applying the updates in the order of ranks and does not depend on the sort. For rounded additions the error is at most that of n roundings, relative to the sum of absolute values, if there are n updates; whole numbers whose absolute values sum up to at most 2^24 or 2^53 are exact. Bins of parallel_bincount are sums of the ranks which have the value, added in the order of ranks, and their error is at most that of as many roundings as there are elements with the value on a rank, plus the number of ranks. A rank with fewer weights than elements gives an IndexError.", "quantifier": "all numbers of ranks, distributions, indexes, updates, operators, results of the sorts, orders of np.sum, numbers of bits and roundings to a nearest number", "why_tests_cant": "Tests compare sums of a few random numbers with a tolerance, and unstable sorts may give another order on another computer.", "anchors": ["python/virgo/mpi/parallel_sort.py:990-1089", "python/virgo/mpi/parallel_sort.py:1092-1161"]}
{"id": "C143", "title": "The C library for IDL finds the particles around a sphere also with rounded operations", "statement": "With rounding to double precision after each operation, get_spherical_region_count and get_spherical_region_coordinates visit the same cells as with exact numbers, if the centre and the radius of the sphere are single precision numbers and the size of the box has at most 18 bits (7 for the 500 of the Millennium simulation). All cells which have a particle in the sphere or a periodic image of it are visited, and none twice if twice the number of cells in the radius plus three is not more than there are on a side. The positions which are returned are relative to the centre, with an error of at most one part in 2^23 of the box, and are never more than half of the box.", "quantifier": "all snapshots with consistent hash tables, spheres, sizes of the box, and roundings to a nearest number", "why_tests_cant": "Differences could only appear for spheres whose centre or radius differs from the boundary of a cell in the last bit.", "anchors": ["examples/millennium/idl/IdlGroupLib/groupstuff.c:755-764", "examples/millennium/idl/IdlGroupLib/groupstuff.c:780-1015"]}
{"id": "C144", "title": "The centre of mass of a group is right up to rounding, but may be the upper end of the box", "statement": "With rounding to double or single precision after each operation, get_group_coordinates of the C library for IDL returns for at most 2^29 particles in the box a centre between zero and the size of the box. The sum of the returned relative positions is at most one part in 2^22 of the box for each particle. Each relative position added to the centre is an image of the position which was read, with an error of at most one part in 2^21 of the box. The loops which wrap the centre end after one pass. The centre can be equal to the size of the box, which is not in the box, also where the exact mean is less than it: for a mean which is negative by at most one part in 2^26 of the box, and for two particles on both sides of the box of the Millennium simulation.", "quantifier": "all groups of up to 2^29 particles, sizes of the box and roundings to a nearest number", "why_tests_cant": "The upper end is only returned if the centre of mass differs from it by less than the spacing of single precision numbers.", "anchors": ["examples/millennium/idl/IdlGroupLib/groupstuff.c:697-725", "examples/millennium/idl/IdlGroupLib/groupstuff.c:735-764"]}
