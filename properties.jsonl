{"id": "C01", "title": "Labels hold exactly the entries that were added, in order", "statement": "Building Labels by adding entries one after the other and finishing gives Labels whose names are the names given, whose count is the number of entries added, whose i-th entry (by index, by iteration and by fixed-size iteration) is the i-th entry added.", "quantifier": "all lists of names, all sequences of entries accepted by the builder", "why_tests_cant": "holds for every number of entries and every width; tests only try a handful of small sets", "anchors": ["src/labels.rs: LabelsBuilder::new, LabelsBuilder::add, LabelsBuilder::finish, Labels::count, Labels::iter, Labels::iter_fixed_size, Index<usize>"]}
{"id": "C02", "title": "Label lookup is the exact inverse of label indexing", "statement": "For Labels obtained from the builder, position(e) returns Some(i) exactly when entry i is e, None exactly when e is not an entry; contains agrees with position; looking up an entry of the wrong length is a panic, never a wrong answer.", "quantifier": "all Labels, all entries of any length", "why_tests_cant": "a hash table and a flat array must agree after every possible history of additions", "anchors": ["src/labels.rs: Labels::position, Labels::contains, LabelsBuilder::add"]}
{"id": "C03", "title": "Labels never contain duplicates or malformed names", "statement": "No sequence of builder calls yields Labels with two equal entries, two equal names, a name that is not an identifier ([A-Za-z_][A-Za-z0-9_]*), or an entry of the wrong width; the builder accepts every input that has none of these defects.", "quantifier": "all lists of names, all sequences of entries", "why_tests_cant": "rejecting must happen for every bad sequence and accepting for every good one", "anchors": ["src/labels.rs: LabelsBuilder::new, LabelsBuilder::add, is_valid_label_name"]}
{"id": "C04", "title": "Labels survive the trip through the C structure", "statement": "Exporting Labels with at least one name to eqs_labels_t and importing the result gives equal Labels; eqs_labels_position on labels exported by the library gives the index of the entry or -1, and an error for labels which do not come from the library; NULL names or NULL values with a positive count are reported as an error.", "quantifier": "all valid Labels, all eqs_labels_t contents", "why_tests_cant": "representation change with NULL / empty corner cases for every size", "anchors": ["src/c_api/labels.rs: TryFrom<&eqs_labels_t> for Labels, TryFrom<&Labels> for eqs_labels_t, eqs_labels_position"]}
{"id": "C05", "title": "A block is created exactly when the data matches its labels", "statement": "TensorBlock::new succeeds iff the array has one dimension per label set, each dimension has the size of the corresponding labels, every component has exactly one name, and no name is used by two components; otherwise an InvalidParameter error is returned.", "quantifier": "all arrays (any backend), samples, component lists and properties", "why_tests_cant": "the iff quantifies over all shapes, ranks and label sets", "anchors": ["src/blocks.rs: check_data_and_labels, check_component_labels, BasicBlock::new, TensorBlock::new"]}
{"id": "C06", "title": "add_gradient accepts exactly the consistent gradients", "statement": "add_gradient succeeds iff the parameter is new and is not 'values' (and contains no NUL, as all names coming from C), the array has the same origin as the values, the samples start with the name 'sample', the gradient components end with the components of the values, and the data matches the labels using the properties of the values. On an error the block is unchanged.", "quantifier": "all blocks, parameters, arrays, labels", "why_tests_cant": "every combination of checks, and the untouched state on each failure path", "anchors": ["src/blocks.rs: TensorBlock::add_gradient"]}
{"id": "C07", "title": "A block stays consistent under any history of gradient additions", "statement": "After any sequence of (successful or failed) add_gradient calls on a new block (with names without NUL, as all names coming from C): values and every gradient have a shape matching their labels, gradients share the properties of the values, gradient components end with those of the values, the first gradient sample name is 'sample', and gradients_list lists exactly the gradients, once each, in the order they were added.", "quantifier": "all blocks, all finite sequences of add_gradient calls", "why_tests_cant": "quantifies over unbounded histories", "anchors": ["src/blocks.rs: TensorBlock::new, TensorBlock::add_gradient, gradients_list, gradient"]}
{"id": "C08", "title": "Gradient samples always refer to existing samples", "statement": "After add_gradient succeeds, the first value of each gradient sample is the index of a sample of the values.", "quantifier": "all blocks and gradients accepted by add_gradient", "why_tests_cant": "universally quantified over label values (it turns out to be false: nothing validates it)", "anchors": ["src/blocks.rs: TensorBlock::add_gradient", "src/tensor/utils.rs: merge_gradient_samples"]}
{"id": "C09", "title": "components_to_properties relabels consistently", "statement": "After a successful components_to_properties the new properties are all pairs (component value, old property) in component-major order with names component ++ property names, the component is removed from the list and the shape matches the new labels again, for values and for every gradient, with gradients sharing the new properties.", "quantifier": "all valid blocks and tensor maps, all component names", "why_tests_cant": "any number of components, sizes and gradients", "anchors": ["src/blocks.rs: BasicBlock::components_to_properties, TensorBlock::components_to_properties", "src/tensor/mod.rs: TensorMap::components_to_properties"]}
{"id": "C10", "title": "components_to_properties keeps every value under its labels", "statement": "After a successful components_to_properties, the value found at (sample, remaining components, (c, p)) is the value that was at (sample, components with c, p), for values and gradients.", "quantifier": "all valid blocks, all positions of the moved component", "why_tests_cant": "needs all ranks; the axis swap used is only right for the last two component axes, which no small test exercises", "anchors": ["src/blocks.rs: BasicBlock::components_to_properties", "src/data.rs: swap_axes, reshape"]}
{"id": "C11", "title": "A failed components_to_properties leaves the tensor map unchanged", "statement": "If components_to_properties fails, keys, labels, gradients and data of the tensor map are what they were before.", "quantifier": "all valid tensor maps, all arguments, all failure points", "why_tests_cant": "ranges over every failure point of an in-place loop", "anchors": ["src/blocks.rs: BasicBlock::components_to_properties", "src/tensor/mod.rs: TensorMap::components_to_properties"]}
{"id": "C12", "title": "A tensor map is created exactly from consistent blocks", "statement": "TensorMap::new succeeds iff there is one block per key and all blocks have the same sample, component and property names and the same set of gradients with the same sample and component names; otherwise it returns an InvalidParameter error; the outcome does not depend on the hash-map iteration order.", "quantifier": "all keys, all lists of blocks, all iteration orders", "why_tests_cant": "all-pairs consistency over unbounded lists and all hash seeds", "anchors": ["src/tensor/mod.rs: TensorMap::new, check_labels_names"]}
{"id": "C13", "title": "blocks_matching returns exactly the matching blocks", "statement": "blocks_matching(selection) returns, in increasing order and without duplicates, the indices of exactly those blocks whose key agrees with the selection on every selected name; it fails exactly when the selection does not have one entry or uses an unknown name; an empty selection matches everything.", "quantifier": "all tensor maps and selections", "why_tests_cant": "soundness and completeness over all keys and selections", "anchors": ["src/tensor/mod.rs: TensorMap::blocks_matching"]}
{"id": "C14", "title": "block_matching and full keys identify blocks uniquely", "statement": "Selecting with all the key names and the i-th key returns exactly block i; block_matching/block succeeds iff exactly one block matches.", "quantifier": "all tensor maps, keys and selections", "why_tests_cant": "uniqueness over all key sets", "anchors": ["src/tensor/mod.rs: TensorMap::block_matching, TensorMap::block"]}
{"id": "C15", "title": "Iteration pairs each key with its own block exactly once", "statement": "iter, iter_mut, par_iter and par_iter_mut visit pair (key i, block i) exactly once for every i; for parallel iteration this holds for any way the work is split. The same holds for the entries of labels.", "quantifier": "all tensor maps, all labels, all splittings of the parallel work and orders of execution of the parts", "why_tests_cant": "all schedules of the parallel iterator", "anchors": ["src/tensor/iter.rs: Iter, IterMut, ParIter, ParIterMut", "src/labels.rs: Iter, ParIter"]}
{"id": "C16", "title": "Merging removes exactly the requested key variables", "statement": "After keys_to_samples or keys_to_properties the keys are the distinct projections of the old keys on the names that were not moved, in order of first appearance (the single key '_'=0 if none is left), with one block per key; a name that is not in the keys is an error.", "quantifier": "all tensor maps and sets of names to move", "why_tests_cant": "set-level statement over all key sets", "anchors": ["src/tensor/utils.rs: remove_variables_from_keys", "src/tensor/keys_to_samples.rs: keys_to_samples", "src/tensor/keys_to_properties.rs: keys_to_properties"]}
{"id": "C17", "title": "keys_to_samples keeps every value under its labels", "statement": "If keys_to_samples succeeds, each value at (key, sample, components, property) is found at (remaining key, sample ++ moved key, components, property), where each moved name carries the value it had in the key, and nothing else is in the result.", "quantifier": "all valid tensor maps, all lists of moved names, both sort settings", "why_tests_cant": "a bijection between two unbounded data sets; fails if names are given in another order than in the keys, which tests do not try", "anchors": ["src/tensor/keys_to_samples.rs: keys_to_samples, merge_blocks_along_samples", "src/tensor/utils.rs: merge_samples, remove_variables_from_keys", "src/data.rs: move_samples_from"]}
{"id": "C18", "title": "keys_to_samples loses and duplicates no sample", "statement": "The number of samples of each merged block is the sum of the numbers of samples of the blocks merged into it, and the samples stay distinct.", "quantifier": "all valid tensor maps", "why_tests_cant": "a counting statement over arbitrary sets of overlapping samples", "anchors": ["src/tensor/keys_to_samples.rs: merge_blocks_along_samples", "src/tensor/utils.rs: merge_samples"]}
{"id": "C19", "title": "Merged samples are the union, sorted or in order of appearance", "statement": "With sort_samples the samples of merged blocks are strictly increasing in lexicographic order; without it they are in order of first appearance over the blocks in key order; in both cases they are exactly the union of the (extended) samples.", "quantifier": "all lists of blocks, both sort settings", "why_tests_cant": "orders over arbitrary integer tuples including negative values", "anchors": ["src/tensor/utils.rs: merge_samples"]}
{"id": "C20", "title": "keys_to_samples keeps every gradient under its labels", "statement": "Each gradient value at (key, gradient sample (i, rest), components, property) is found at (remaining key, (i', rest), components, property) where i' is the index in the new samples of sample i extended with the moved key, and nothing else is in the result.", "quantifier": "all valid tensor maps with gradients, both build modes", "why_tests_cant": "index indirection through a merged and re-sorted table", "anchors": ["src/tensor/keys_to_samples.rs: merge_blocks_along_samples", "src/tensor/utils.rs: merge_gradient_samples"]}
{"id": "C21", "title": "A failed merge leaves the tensor map unchanged", "statement": "If keys_to_samples or keys_to_properties fails, by an error or a panic at any point, including a failing array callback, the tensor map is exactly as before.", "quantifier": "all tensor maps, all arguments, all array backends, all failure points", "why_tests_cant": "ranges over every failure point", "anchors": ["src/tensor/keys_to_samples.rs: keys_to_samples", "src/tensor/keys_to_properties.rs: keys_to_properties"]}
{"id": "C22", "title": "Merges only combine compatible blocks", "statement": "keys_to_samples fails unless all merged blocks have equal components and equal properties; keys_to_properties fails unless they have equal components and, when the user gives the new property entries, equal properties.", "quantifier": "all tensor maps", "why_tests_cant": "for every pair of blocks in every group", "anchors": ["src/tensor/keys_to_samples.rs: merge_blocks_along_samples", "src/tensor/keys_to_properties.rs: merge_blocks_along_properties"]}
{"id": "C23", "title": "keys_to_properties keeps every value under its labels", "statement": "If keys_to_properties succeeds, each value at (key, sample, components, property) is found at (remaining key, sample, components, moved key ++ property), where each moved name carries the value it had in the key.", "quantifier": "all valid tensor maps, all lists of moved names, both sort settings", "why_tests_cant": "all overlaps of samples and all property sets", "anchors": ["src/tensor/keys_to_properties.rs: keys_to_properties, merge_blocks_along_properties", "src/tensor/utils.rs: merge_samples", "src/data.rs: move_samples_from"]}
{"id": "C24", "title": "keys_to_properties fills with zeros what was not there", "statement": "In the result of keys_to_properties, an entry (sample, components, moved key ++ property) is zero when the block of that key had no such sample; there is no other entry than moved values and zeros.", "quantifier": "all valid tensor maps", "why_tests_cant": "the complement of an arbitrary overlap pattern", "anchors": ["src/tensor/keys_to_properties.rs: merge_blocks_along_properties", "src/data.rs: create, move_samples_from"]}
{"id": "C25", "title": "keys_to_properties builds the documented property labels", "statement": "The new property names are the moved names followed by the old property names; the entries are, block after block, each moved key followed by each property of that block, or, with user-provided entries, each provided entry followed by each property.", "quantifier": "all valid tensor maps, with and without user-provided entries", "why_tests_cant": "any number of blocks and properties", "anchors": ["src/tensor/keys_to_properties.rs: merge_blocks_along_properties"]}
{"id": "C26", "title": "User-provided property keys select blocks and add zeros", "statement": "With user-provided entries, blocks whose moved key is listed keep their values, blocks whose moved key is not listed contribute no value, and listed entries without a block give zeros.", "quantifier": "all valid tensor maps, all user-provided label sets", "why_tests_cant": "all ways the requested set can overlap the existing one", "anchors": ["src/tensor/keys_to_properties.rs: keys_to_properties, merge_blocks_along_properties"]}
{"id": "C27", "title": "keys_to_properties keeps every gradient under its labels", "statement": "Each gradient value at (key, (i, rest), components, property) is found at (remaining key, (i', rest), components, moved key ++ property) where i' is the index of sample i in the merged samples, and the other entries are zero.", "quantifier": "all valid tensor maps with gradients", "why_tests_cant": "index indirection with shared samples", "anchors": ["src/tensor/keys_to_properties.rs: merge_blocks_along_properties", "src/tensor/utils.rs: merge_gradient_samples"]}
{"id": "C28", "title": "Every reachable tensor map is valid", "statement": "Starting from TensorMap::new and applying any sequence of keys_to_samples, keys_to_properties and components_to_properties calls (components_to_properties calls that panic excluded), every tensor map is valid: one block per distinct key, consistent names, shapes matching labels, consistent gradients.", "quantifier": "all initial tensor maps, all finite operation sequences, all hash orders", "why_tests_cant": "invariant over unbounded histories", "anchors": ["src/tensor/mod.rs", "src/tensor/keys_to_samples.rs", "src/tensor/keys_to_properties.rs", "src/blocks.rs"]}
{"id": "C29", "title": "Results do not depend on hash-map iteration order", "statement": "Running the same operation with two different hash-map iteration orders gives tensor maps that differ at most in the order in which gradients are listed.", "quantifier": "all tensor maps, all pairs of iteration orders", "why_tests_cant": "iteration order of HashMap is random per process", "anchors": ["src/blocks.rs: TensorBlock::gradients", "src/tensor/keys_to_samples.rs", "src/tensor/keys_to_properties.rs", "src/tensor/mod.rs: TensorMap::new"]}
{"id": "C30", "title": "Data origins are stable and injective", "statement": "For any history of registrations from any threads: registering the same name again gives the same id, different names give different ids, ids never change, get_data_origin(register_data_origin(name)) is name, and an unknown id gives 'unregistered origin'.", "quantifier": "all interleavings of register/get calls", "why_tests_cant": "all histories and interleavings", "anchors": ["src/data.rs: register_data_origin, get_data_origin, REGISTERED_DATA_ORIGIN"]}
{"id": "C31", "title": "A registered origin is never confused with an unregistered one", "statement": "No registered name gets the id 0 used for unregistered origins.", "quantifier": "all names", "why_tests_cant": "quantifies over all names (false for one reserved name)", "anchors": ["src/data.rs: register_data_origin"]}
{"id": "C32", "title": "NPY headers round-trip and are aligned", "statement": "A written NPY header has a total length that is a multiple of 64, uses version 1.0 whenever the header fits after padding with at least one space and 2.0 otherwise, ends with a newline, and reading it back gives the same header and leaves exactly the bytes that follow it.", "quantifier": "all headers (any dtype, any shape, any size)", "why_tests_cant": "all header sizes including the version switch at 65535 bytes", "anchors": ["src/io/npy_header.rs: Header::to_bytes, Header::from_reader, Version::compute_lengths, Header::to_py_value, Header::from_py_value"]}
{"id": "C33", "title": "Labels round-trip through NPY", "statement": "Reading back written Labels gives equal Labels.", "quantifier": "all valid Labels with at least one name", "why_tests_cant": "all names, all counts, all 32-bit values", "anchors": ["src/io/labels.rs: write_npy_labels, read_npy_labels, check_type_descriptor"]}
{"id": "C34", "title": "Array data round-trips through NPY bit for bit", "statement": "Reading back a written array gives the same shape and the same 64-bit patterns, including NaN payloads and negative zero.", "quantifier": "all arrays", "why_tests_cant": "all shapes and bit patterns", "anchors": ["src/io/mod.rs: write_data, read_data"]}
{"id": "C35", "title": "A saved tensor map loads back equal", "statement": "Loading what save wrote gives a tensor map with the same keys, labels, data and gradients (gradients listed in an order that depends on the archive).", "quantifier": "all valid tensor maps whose arrays can be read and fit in memory, with gradient names without NUL, all archive listing orders", "why_tests_cant": "all numbers of blocks, components, gradients and all gradient names", "anchors": ["src/io/mod.rs: save, load"]}
{"id": "C36", "title": "Archive entries never collide", "statement": "The entries written by save for different parts of a tensor map have different names, and the gradient names are recovered exactly from the entry names.", "quantifier": "all gradient names (including ones with slashes), all block and component indices", "why_tests_cant": "string-level injectivity over all names", "anchors": ["src/io/mod.rs: save, load"]}
{"id": "C37", "title": "Truncated or extended entries are rejected", "statement": "Every strict prefix, and every extension, of the bytes written for labels or data is rejected with an error when read; a partial file is never read as different labels or data.", "quantifier": "all labels and arrays, all truncation points, all extensions", "why_tests_cant": "all crash points of the writer", "anchors": ["src/io/mod.rs: read_data, check_for_extra_bytes", "src/io/labels.rs: read_npy_labels", "src/io/npy_header.rs: Header::from_reader"]}
{"id": "C38", "title": "Whatever the file contains, a loaded tensor map is valid", "statement": "If load (or reading labels) succeeds on arbitrary bytes, the result satisfies all the invariants of a tensor map (labels).", "quantifier": "all archives, all byte strings", "why_tests_cant": "all malicious inputs", "anchors": ["src/io/mod.rs: load, read_data", "src/io/labels.rs: read_npy_labels"]}
{"id": "C39", "title": "Big-endian and little-endian files load the same", "statement": "The big-endian encoding of the same labels or array is read as the same labels or array; mixed-endianness labels and fortran-order arrays are rejected.", "quantifier": "all labels and arrays", "why_tests_cant": "all values", "anchors": ["src/io/labels.rs: check_type_descriptor, read_npy_labels", "src/io/mod.rs: read_data"]}
{"id": "C40", "title": "Loading malformed files reports an error instead of panicking", "statement": "For any archive content, load returns Ok or Err and does not panic.", "quantifier": "all archives", "why_tests_cant": "all malicious inputs (false: there are panicking inputs)", "anchors": ["src/io/mod.rs: load", "src/io/labels.rs: check_type_descriptor", "src/labels.rs: LabelsBuilder::new, add"]}
{"id": "C41", "title": "C API calls report failures faithfully", "statement": "A C API call returns EQS_SUCCESS iff the Rust operation returned Ok, otherwise the status code of the error (the callback's own status for array errors, EQS_INTERNAL_ERROR for panics); eqs_last_error then gives the message of the last failed call of the same thread, whatever other threads do.", "quantifier": "all operations, all interleavings of calls by all threads", "why_tests_cant": "all interleavings", "anchors": ["src/c_api/status.rs: catch_unwind, eqs_last_error", "src/lib.rs: Error"]}
{"id": "C42", "title": "C API calls always return to the caller", "statement": "Whatever the error, a C API call returns a status instead of unwinding or aborting.", "quantifier": "all errors and messages", "why_tests_cant": "all messages (false when the message contains a NUL byte)", "anchors": ["src/c_api/status.rs: LAST_ERROR_MESSAGE, eqs_status_t::from"]}
{"id": "C43", "title": "eqs_tensormap_blocks_matching never writes outside the buffer", "statement": "The call writes at most the number of entries given by the caller; it succeeds iff the matching blocks fit, then *count is their number and the buffer starts with their indices; a buffer with one entry per block always suffices.", "quantifier": "all tensor maps, selections and buffer sizes", "why_tests_cant": "all buffer sizes against all numbers of matches", "anchors": ["src/c_api/tensor.rs: eqs_tensormap_blocks_matching", "equistore/tensor.py: TensorMap.blocks_matching"]}
{"id": "C44", "title": "eqs_get_data_origin never writes outside the buffer", "statement": "The call writes at most buffer_size bytes, and on success the buffer holds the NUL-terminated name.", "quantifier": "all names and buffer sizes", "why_tests_cant": "all sizes including 0 (where it is false without overflow checks)", "anchors": ["src/c_api/utils.rs: copy_str_to_c", "src/c_api/data.rs: eqs_get_data_origin"]}
{"id": "C45", "title": "Origin names of any length can be read from Python", "statement": "data_origin_name returns the registered name of any length, by growing its buffer.", "quantifier": "all names", "why_tests_cant": "all lengths (false from 1024 bytes on: the status code is not the one the caller retries on)", "anchors": ["src/c_api/utils.rs: copy_str_to_c", "equistore/utils.py: _call_with_growing_buffer"]}
{"id": "C46", "title": "eqs_block_labels numbers the axes as the data does", "statement": "eqs_block_labels(axis) returns the samples for axis 0, component axis-1 for the next axes, the properties for the last one and an error beyond; the labels returned for an axis have as many entries as the data has along that axis.", "quantifier": "all valid blocks and gradients, all axes", "why_tests_cant": "all ranks", "anchors": ["src/c_api/blocks.rs: eqs_block_labels"]}
{"id": "C47", "title": "Each array is released exactly once", "statement": "For any sequence of C API calls that uses handles correctly, each array handed to the library is destroyed at most once, never while a live block still uses it, and exactly once by the time all handles have been freed.", "quantifier": "all call sequences, including failing calls", "why_tests_cant": "histories over an unbounded set of handles", "anchors": ["src/c_api/blocks.rs: eqs_block, eqs_block_free, eqs_block_copy, eqs_block_add_gradient, eqs_block_data", "src/c_api/tensor.rs: eqs_tensormap, eqs_tensormap_free", "src/data.rs: eqs_array_t Drop/Clone/raw_copy"]}
{"id": "C48", "title": "eqs_tensormap takes each block exactly once", "statement": "If the same block is given twice the call fails and no block is consumed; otherwise all pointers are set to NULL and each block belongs to the tensor map (or is freed if creation fails).", "quantifier": "all lists of block pointers", "why_tests_cant": "all aliasing patterns", "anchors": ["src/c_api/tensor.rs: eqs_tensormap"]}
{"id": "C49", "title": "Copying a block gives an independent equal block", "statement": "eqs_block_copy gives a block with equal labels, data and gradients; later changes to one do not affect the other.", "quantifier": "all blocks, all later mutations", "why_tests_cant": "all later histories", "anchors": ["src/c_api/blocks.rs: eqs_block_copy", "src/data.rs: Clone for eqs_array_t"]}
{"id": "C50", "title": "Results do not depend on the array implementation", "statement": "For any array implementation providing the eqs_array_t callbacks as documented (numpy, Rust ndarray or third party), creating blocks, adding gradients, keys_to_samples, keys_to_properties and components_to_properties end in the same way and give the same labels, shapes and elements: the library only makes calls the documentation allows, such as moving samples between arrays with matching shapes.", "quantifier": "all pairs of array implementations, all tensor maps and operations, all sequences of operations", "why_tests_cant": "all possible implementations of the callbacks", "anchors": ["src/data.rs: eqs_array_t", "src/tensor/keys_to_samples.rs: merge_blocks_along_samples", "src/tensor/keys_to_properties.rs: merge_blocks_along_properties", "src/blocks.rs: components_to_properties", "equistore/data.py: ArrayWrapper"]}
{"id": "C51", "title": "Data of blocks stays readable after any operation", "statement": "For arrays managed by the library (the Rust ndarray backend), if the values and gradients of all blocks of a tensor map can be accessed through eqs_array_t.data and eqs_get_rust_array, they can still be accessed (and saved) after keys_to_samples, keys_to_properties and components_to_properties, and the elements come in the order of their indexes.", "quantifier": "all tensor maps, all shapes, all sequences of operations", "why_tests_cant": "whether memory is in row-major order after swapping and merging axes depends on the sizes of all axes", "anchors": ["src/data.rs: rust_array_data, rust_array_reshape, rust_array_swap_axes, rust_array_move_samples_from, eqs_get_rust_array", "src/blocks.rs: components_to_properties", "src/io/mod.rs: save"]}
{"id": "C52", "title": "An interrupted save never loads as something else", "statement": "Whatever happens while a tensor map is saved to a file (the disk stops accepting data at any point and possibly works again later, the process dies, reading an array fails), if loading this file afterwards succeeds, it gives the tensor map which was saved; otherwise the file could not be created and is what it was before.", "quantifier": "all tensor maps, all failure points (after any number of bytes and entries), all outcomes of the failure, all previous contents", "why_tests_cant": "the number of points where a save can be interrupted grows with the size of the data, and depends on the order of hash maps", "anchors": ["src/io/mod.rs: save, load, write_data", "src/io/labels.rs: write_npy_labels, read_npy_labels", "src/c_api/io.rs: eqs_tensormap_save, eqs_tensormap_load"]}
{"id": "C53", "title": "A successful save can be loaded back", "statement": "If eqs_tensormap_save reports success, eqs_tensormap_load on the same path gives back the same tensor map, also after any number of calls saving to other paths in between.", "quantifier": "all tensor maps, all disks, all sequences of saves to other paths", "why_tests_cant": "failures of the disk for the last bytes are not produced by tests", "anchors": ["src/c_api/io.rs: eqs_tensormap_save, eqs_tensormap_load", "src/io/mod.rs: save"]}
{"id": "C54", "title": "A failed save does not damage files", "statement": "A call to eqs_tensormap_save which fails leaves all files as they were; and no call changes any other file than the one with the given path.", "quantifier": "all parameters (including NULL pointers and invalid paths), all disks, all contents of files", "why_tests_cant": "depends on where the failure happens", "anchors": ["src/c_api/io.rs: eqs_tensormap_save", "src/io/mod.rs: save"]}
{"id": "C55", "title": "Python programs are memory safe", "statement": "No sequence of Python statements using TensorBlock and TensorMap (creating, copying, deleting, reading, adding gradients, moving blocks into tensor maps, changing tensor maps, loading, saving, garbage collection at any time) has undefined behaviour: no use of freed blocks, tensor maps or arrays, no NULL block given to the library where it is not checked, no callback of a garbage collected array.", "quantifier": "all sequences of statements, all arguments, all times of garbage collection, all array implementations", "why_tests_cant": "depends on the order of statements and on when the garbage collector runs", "anchors": ["equistore/block.py: TensorBlock", "equistore/tensor.py: TensorMap", "equistore/data.py: ArrayWrapper"]}
{"id": "C56", "title": "Python programs do not leak arrays", "statement": "In a Python program without undefined behaviour, every array ever created has been destroyed or belongs to an object which exists; when all blocks and tensor maps have been deleted, every array has been destroyed exactly once.", "quantifier": "all sequences of statements, including those which raise exceptions", "why_tests_cant": "leaks happen on the paths which raise exceptions, and are not visible in results", "anchors": ["equistore/block.py: TensorBlock.__del__", "equistore/tensor.py: TensorMap.__init__, TensorMap.__del__"]}
{"id": "C57", "title": "Methods do not change the garbage collector", "statement": "No method of TensorBlock or TensorMap changes whether the cyclic garbage collector of Python is enabled, also when it raises an exception.", "quantifier": "all statements in all reachable states, all outcomes", "why_tests_cant": "the state of the garbage collector is global, and tests do not look at it after exceptions", "anchors": ["equistore/block.py: TensorBlock.__deepcopy__"]}
{"id": "C58", "title": "Blocks moved into a tensor map can not be used", "statement": "After TensorMap(keys, blocks) returned, every method of these blocks raises an exception, and changes no block, tensor map or array; an array given to add_gradient is destroyed.", "quantifier": "all programs (also careless ones), all blocks which were in the list, at any later time", "why_tests_cant": "all the methods at all later times", "anchors": ["equistore/tensor.py: TensorMap.__init__", "equistore/block.py: TensorBlock"]}
{"id": "C59", "title": "Python labels hold the names and values they are created with", "statement": "Labels(names, values) either raises an exception or gives labels with exactly these names and values; it raises exactly when the names or the rows are not all different, or the values are not a two dimensional array of integers with one column per name.", "quantifier": "all lists of names and all arrays of integers", "why_tests_cant": "tests use a few small integers; values are converted to 32 bits silently", "anchors": ["equistore/labels.py: Labels.__new__"]}
{"id": "C60", "title": "The library sees the labels Python sees", "statement": "When labels made in Python are given to a function of the library, the library sees the same names and the same entries in the same order, for labels created by Labels(...) and for all labels obtained from others by slices, lists of positions or lists of names.", "quantifier": "all labels obtained by any sequence of these operations", "why_tests_cant": "depends on strides and offsets of views, sequences of operations are not bounded", "anchors": ["equistore/labels.py: Labels._as_eqs_labels_t", "equistore/labels.py: Labels.__new__", "src/c_api/labels.rs: TryFrom<&eqs_labels_t> for Labels"]}
{"id": "C61", "title": "Python sees the labels of the library", "statement": "Labels returned by the library have in Python the names and entries they have in the library; they can be read as an array; position and `in` find exactly the entries. They never give a wrong answer for other labels, made in Python or taken from labels by indexing: they raise an exception.", "quantifier": "all labels of the library and all labels a program can have, all entries searched for, with any integers", "why_tests_cant": "all the labels, and all the integers to search for", "anchors": ["equistore/labels.py: Labels._from_eqs_labels_t", "equistore/labels.py: Labels.position", "equistore/labels.py: Labels.asarray", "equistore/labels.py: Labels.as_namedtuples"]}
{"id": "C62", "title": "Blocks are selected by what was asked for", "statement": "tensor.block(...) returns the only block matching all its parameters (position, labels with one entry, entry of labels, keyword parameters) and raises an exception if there is none or more than one; tensor.blocks(...) returns all the matching blocks in order, and tensor.blocks_matching(...) their indexes. tensor.block(tensor.keys[i]) is the block i, whatever the names of the keys are.", "quantifier": "all tensor maps and names of keys, all parameters and combinations of them", "why_tests_cant": "all tensor maps and combinations of parameters", "anchors": ["equistore/tensor.py: TensorMap.block", "equistore/tensor.py: TensorMap.blocks", "equistore/tensor.py: TensorMap.blocks_matching"]}
{"id": "C63", "title": "Iterating over a tensor map in Python", "statement": "Iterating over a tensor map gives every key, with its names, and the block of this key, once and in the order of the keys, and len() is the number of blocks.", "quantifier": "all tensor maps", "why_tests_cant": "all tensor maps of all sizes", "anchors": ["equistore/tensor.py: TensorMap.__iter__", "equistore/tensor.py: TensorMap.__len__"]}
{"id": "C64", "title": "Saving and loading with numpy gives the tensor map back", "statement": "A tensor map saved with equistore.io.save(path, tensor, use_numpy=True) is loaded by equistore.io.load(path, use_numpy=True) with the same keys, samples, components, properties, gradients and arrays (type of elements, shape, order and bytes).", "quantifier": "all tensor maps, machines and orders of gradients", "why_tests_cant": "all names, numbers of blocks and gradients, shapes, sizes of headers, and pairs of machines", "anchors": ["equistore/io.py: save", "equistore/io.py: load", "equistore/io.py: _tensor_map_to_dict", "equistore/io.py: _labels_from_npz", "equistore/io.py: _read_npz"]}
{"id": "C65", "title": "Files of the two implementations are interchangeable", "statement": "What is saved with use_numpy=True can be loaded by the library (use_numpy=False, or any other language), and what is saved by the library can be loaded with use_numpy=True, with the same keys, labels, shapes and elements in both directions; files which are not supported are refused, never loaded with wrong data.", "quantifier": "all tensor maps, machines, builds, orders of entries and of gradients", "why_tests_cant": "two implementations of the same format have to agree on all tensor maps and machines", "anchors": ["equistore/io.py: save", "equistore/io.py: load", "src/io/mod.rs: load", "src/io/mod.rs: save", "src/io/labels.rs: load_npy_labels"]}
{"id": "C66", "title": "Failing callbacks are never ignored", "statement": "If the callbacks of the arrays in a tensor map can fail at any time (for example because there is no more memory), or are missing (a NULL pointer in eqs_array_t), then creating a block, adding a gradient, keys_to_samples, keys_to_properties and components_to_properties either report the failure to the caller, with the status of the callback (the status of an internal error naming the callback when it is missing) and without changing the block or tensor map, or end in the same way and with the same labels and data as with arrays which never fail. In particular, an operation which succeeds has the right result.", "quantifier": "all array implementations doing what is documented or failing, with any failures of any callbacks at any calls and any callbacks missing, all valid tensor maps, all operations and sequences of operations", "why_tests_cant": "ranges over every implementation of the array callbacks and every point where they can fail", "anchors": ["src/data.rs: eqs_array_t", "src/tensor/keys_to_samples.rs: merge_blocks_along_samples", "src/tensor/keys_to_properties.rs: merge_blocks_along_properties", "src/blocks.rs: BasicBlock::components_to_properties, TensorBlock::add_gradient", "src/c_api/status.rs: catch_unwind"]}
{"id": "C67", "title": "Exceptions raised in callbacks are the cause of errors in Python", "statement": "When a Python function used as callback of an array raises an exception, the method of equistore being called raises an EquistoreError with this exception as its cause; a method succeeds only if no callback raised an exception, and errors without any such exception have no cause.", "quantifier": "all Python programs with any number of threads and calls, all exceptions in any callbacks, all orders in which the threads run", "why_tests_cant": "ranges over all interleavings of threads sharing a global variable, and all histories of failed calls", "anchors": ["equistore/status.py: LAST_EXCEPTION, _save_exception, _check_status, _check_pointer", "equistore/utils.py: catch_exceptions", "equistore/_c_api.py: setup_functions"]}
{"id": "C68", "title": "Labels, keys and pointers to blocks stay valid as long as documented", "statement": "The memory of labels returned by eqs_block_labels is there until the block is destroyed with eqs_block_free, or the tensor map containing it is destroyed or modified with one of the eqs_tensormap_keys_to_xxx functions, even if the block is moved into a tensor map, gradients are added or calls fail in between; eqs_block_labels returns the same labels again until then. The same holds for the keys returned by eqs_tensormap_keys and the pointers returned by eqs_tensormap_block_by_id.", "quantifier": "all programs using the C API according to its documentation, all labels, keys and blocks they look at, all axes and gradients, all sequences of calls afterwards", "why_tests_cant": "ranges over all histories of calls between getting a pointer and using it; a dangling pointer often still shows the old values", "anchors": ["include/equistore.h: eqs_block_labels, eqs_tensormap_keys, eqs_tensormap_block_by_id", "src/c_api/blocks.rs: eqs_block_labels, eqs_block_add_gradient", "src/c_api/tensor.rs: eqs_tensormap, eqs_tensormap_keys, eqs_tensormap_components_to_properties", "src/blocks.rs: BasicBlock::components_to_properties"]}
{"id": "C69", "title": "Labels taken from blocks and tensor maps can be used as long as they exist", "statement": "Labels returned by samples, components and properties of a TensorBlock or one of its gradients, and by TensorMap.keys, point to memory which exists as long as these Labels do, even if the program has no other reference to the block or tensor map; taking them again gives the same labels. In the code this is true if afterwards the block is not given to TensorMap(), and the tensor map is not changed by keys_to_properties, keys_to_samples (for keys and labels of its blocks) or components_to_properties (for labels of its blocks other than samples).", "quantifier": "all Python programs following the rules of C55, all labels they take and keep, all sequences of statements afterwards, including deleting objects and exceptions", "why_tests_cant": "ranges over all histories between taking labels and reading them, and reading freed memory often still gives the old values", "anchors": ["equistore/labels.py: Labels._from_eqs_labels_t, _parent", "equistore/block.py: TensorBlock._labels, Gradient._labels", "equistore/tensor.py: TensorMap.keys, TensorMap.__init__, keys_to_properties, keys_to_samples, components_to_properties"]}
{"id": "C70", "title": "Arrays of a block stay where they are, and nothing else writes into them", "statement": "The array returned by eqs_block_data for the values or a gradient of a block exists until the block is destroyed, or the tensor map containing it is destroyed or has its keys moved, and until then eqs_block_data on any pointer to the block returns this array. Its content changes only if the program writes into this array or calls eqs_tensormap_components_to_properties on the tensor map containing the block; in particular it does not change when gradients are added to the block, when the block is moved into a tensor map, when moving keys fails, or when any other block, array or tensor map is changed. Right after eqs_block this array is, for the name \"values\", the one given to eqs_block; right after a successful eqs_block_add_gradient it is, for the name of the gradient, the one given to eqs_block_add_gradient.", "quantifier": "all C programs following the ownership rules of C47, all blocks, values and gradients, all sequences of calls between eqs_block_data and the use of the array, including failing ones", "why_tests_cant": "ranges over all histories between taking an array and using it, and aliasing between arrays shows up only for particular combinations of calls", "anchors": ["src/c_api/blocks.rs: eqs_block_data, eqs_block_add_gradient", "src/c_api/tensor.rs: eqs_tensormap, eqs_tensormap_keys_to_properties, eqs_tensormap_keys_to_samples, eqs_tensormap_components_to_properties", "src/data.rs: eqs_array_t::raw_copy", "src/blocks.rs: TensorBlock::add_gradient, TensorBlock::components_to_properties"]}
{"id": "C71", "title": "Read-only arrays can be used in tensor maps", "statement": "The library never asks for the elements of an array provided by the program to be modified: creating blocks, adding gradients, moving keys to samples or properties, moving components and saving do exactly the same (same outcome, error messages, labels, arrays and bytes) when some or all of the arrays refuse every modification of their elements as when they accept it. As the documentation says, the output array given to move_samples_from was always created from an array in the same tensor map as the input array. After moving keys, all arrays in the tensor map are arrays created by the library; moving components leaves all arrays in place.", "quantifier": "all tensor maps, valid or not, all implementations of the array callbacks, including failing ones, all choices of read-only arrays, all operations and sequences of operations, all hash map iteration orders, debug and release builds", "why_tests_cant": "tests use writable arrays, and a write into an array of the program would only be seen for particular choices of keys and blocks", "anchors": ["src/tensor/keys_to_samples.rs: merge_blocks_along_samples", "src/tensor/keys_to_properties.rs: merge_blocks_along_properties", "src/blocks.rs: TensorBlock::new, TensorBlock::add_gradient, TensorBlock::components_to_properties", "src/io/mod.rs: save, write_data", "src/data.rs: eqs_array_t::move_samples_from, eqs_array_t::create"]}
{"id": "C72", "title": "Numpy arrays can have any layout in memory", "statement": "Blocks can contain any numpy arrays, whatever their layout in memory: contiguous, transposed, with negative or larger steps, or with elements sharing a place. Creating blocks, adding gradients, and all operations on tensor maps have the same outcome and give equal arrays when arrays are replaced by equal arrays with another layout. Reading the data of an array from C gives its elements in row-major order, or an error, so that saved files never contain elements in another order. All data can be read after merging blocks, and after any operation on a tensor map where all data can be read.", "quantifier": "all numpy arrays (any shape, strides of any size and sign, any position in memory), all tensor maps and pairs of tensor maps with equal arrays, all operations and sequences of operations, all hash map iteration orders, debug and release builds", "why_tests_cant": "reshape decides between a view and a copy by comparing products of dimensions and strides; tests use small contiguous arrays", "anchors": ["equistore/data.py: _eqs_array_data, _eqs_array_reshape, _eqs_array_swap_axes, _eqs_array_create, _eqs_array_move_samples_from", "src/blocks.rs: BasicBlock::components_to_properties", "src/io/mod.rs: save, write_data"]}
{"id": "C73", "title": "Number types of numpy arrays", "statement": "Blocks can contain numpy arrays with any number type. Whatever the mix of types in a tensor map, operations succeed or fail in the same way, with the same labels and shapes, as with float64, and give the same numbers; no new types appear. Creating blocks, adding gradients and components_to_properties never change numbers. Only tensor maps where all arrays are float64 can be saved, and the file contains their numbers.", "quantifier": "all number types, given by the function converting numbers to this type, all mixes of them in a tensor map, all tensor maps, all operations and sequences of operations, all hash map iteration orders, debug and release builds", "why_tests_cant": "tests use the same type in all blocks; the numbers which change when they are converted are a subset of 2^64 numbers for each type", "anchors": ["equistore/data.py: _eqs_array_create, _eqs_array_move_samples_from, _eqs_array_data", "src/tensor/keys_to_samples.rs: merge_blocks_along_samples", "src/tensor/keys_to_properties.rs: merge_blocks_along_properties", "src/io/mod.rs: save"]}
{"id": "C74", "title": "Moving keys succeeds exactly under stated conditions", "statement": "keys_to_samples succeeds exactly when names of the keys were given without entries, the tensor map has blocks or key variables are left, samples do not already have a variable with one of these names, blocks merged together have the same components, properties and (in debug builds) gradient components, and gradient samples refer to samples of their block. keys_to_properties succeeds exactly when names of the keys were given, the tensor map has blocks or key variables are left, properties do not already have a variable with one of these names, all blocks have properties, blocks merged together have the same components (and the same properties if entries are given), (in debug builds) the gradient components of the blocks listed agree, and gradient samples refer to samples of their block. Whether it succeeds does not depend on sort_samples, on the numbers in the arrays, or on the iteration order of hash maps. In release builds, with arrays from Rust and numpy arrays, gradient components must also have the sizes of those of the first merged block, or a single entry (arrays from Rust ignore gradients without samples).", "quantifier": "all valid tensor maps, all labels of keys to move with or without entries, both values of sort_samples, all hash map iteration orders, all arrays which implement the callbacks as documented, debug builds, and release builds if gradient components have the same sizes; without this condition for arrays from Rust and numpy arrays; at most 2^31 - 1 samples in merged blocks", "why_tests_cant": "a test shows one tensor map which is accepted or refused; the conditions must be neither too strong nor too weak for all of them", "anchors": ["src/tensor/keys_to_samples.rs: keys_to_samples, merge_blocks_along_samples", "src/tensor/keys_to_properties.rs: keys_to_properties, merge_blocks_along_properties", "src/tensor/utils.rs: KeysMover, merge_gradient_samples"]}
{"id": "C75", "title": "Keys can be moved to samples at once or in several steps", "statement": "Calling keys_to_samples once with several names, and calling it with the first ones and then with the last ones, succeed in the same cases and give the same tensor map when the samples are sorted: same keys, labels, numbers and gradients, up to the order in which gradients are listed. The result of keys_to_samples is completely determined by its description.", "quantifier": "all valid tensor maps, all lists of names split at any place, both values of sort_samples in the first step, all hash map iteration orders, all arrays which implement the callbacks as documented, debug builds, and release builds if gradient components agree; at most 2^31 - 1 samples in merged blocks", "why_tests_cant": "a test compares the two ways for one tensor map; they must agree for all keys, labels, numbers and gradients", "anchors": ["src/tensor/keys_to_samples.rs: keys_to_samples, merge_blocks_along_samples", "src/tensor/utils.rs: KeysMover, merge_gradient_samples"]}
{"id": "C76", "title": "Printing a tensor map shows its keys", "statement": "str(tensor) and repr(tensor) never fail. str(tensor) shows the number of blocks, the names of the keys, and one line for each key with its values in order, so that tensor maps which print the same text have the same keys. repr(tensor) shows the same if there are at most ten blocks, and otherwise the first three and the last three keys with a line of dots in between.", "quantifier": "all valid tensor maps: any number of keys, any names, any values", "why_tests_cant": "tests compare the text for a few tensor maps with small values; whether the text can be misread depends on the values and on the length of the names", "anchors": ["equistore/tensor.py: TensorMap.__repr__, TensorMap.__str__, TensorMap.__len__, TensorMap.keys", "equistore/labels.py: _print_labels, _make_padding"]}
{"id": "C77", "title": "Arrays taken from blocks in Python can be used as long as they exist", "statement": "The numpy arrays returned by block.values and gradient.data for blocks made by the library (for example loaded from a file, or copies of these) can be read and written as long as they exist: their memory is there, also when the last other reference to the block or tensor map is dropped, they stay the values or the gradient of the block they come from, their content changes only when the program writes to them, and writing to one of them changes no other array.", "quantifier": "all Python programs with any number of blocks, tensor maps and arrays; all ways to take arrays, and all statements in between", "why_tests_cant": "whether memory has been released is not visible in a test, and depends on everything the program did since it took the array", "anchors": ["equistore/data.py: _RustNDArray, eqs_array_to_python_object", "equistore/block.py: TensorBlock.values, Gradient.data, _get_raw_array", "src/data.rs: reshape for ndarray::ArrayD", "src/c_api/blocks.rs: eqs_block_data"]}
{"id": "C78", "title": "Torch tensors can be used in tensor maps like numpy arrays", "statement": "Tensor maps holding torch tensors behave like the same tensor maps holding numpy arrays: blocks are accepted in the same cases, every sequence of operations has the same outcome and gives the same elements, on any device and whether or not tensors require gradients. Torch can differentiate through the operations: an array in the result requires gradients exactly if one of the arrays it was made from does. Tensor maps are saved like with numpy arrays, if the tensors are on the CPU and do not require gradients.", "quantifier": "all tensor maps with torch tensors, devices, subsets of tensors requiring gradients, and sequences of operations; all tensor maps to save", "why_tests_cant": "which arrays are merged, and which of them require gradients, can be combined in unboundedly many ways; GPU devices are rarely available in tests", "anchors": ["equistore/data.py: ArrayWrapper, _eqs_array_data, _eqs_array_create, _eqs_array_reshape, _eqs_array_swap_axes, _eqs_array_move_samples_from", "equistore/io.py: save, _array_to_numpy, _tensor_map_to_dict"]}
{"id": "C79", "title": "Keys can be moved to properties at once or in several steps", "statement": "Calling keys_to_properties once with several names and no entries, and calling it with the last ones and then with the first ones, succeed in the same cases and give the same tensor map when the samples are sorted: same keys, samples, components, set of properties, and the same numbers and gradients under the same labels, zeros included; only the order of properties and the order in which gradients are listed can differ.", "quantifier": "all valid tensor maps, all lists of names split at any place, both values of sort_samples in the first step, all hash map iteration orders, all arrays which implement the callbacks as documented, debug builds, and release builds if gradient components agree; at most 2^31 - 1 samples in merged blocks", "why_tests_cant": "a test compares the two ways for one tensor map; they must agree for all keys, labels, numbers, gradients and all entries filled with zeros in one or the other step", "anchors": ["src/tensor/keys_to_properties.rs: keys_to_properties, merge_blocks_along_properties", "src/tensor/utils.rs: KeysMover, merge_samples, merge_gradient_samples"]}
{"id": "C80", "title": "What is saved with a path is loaded with the same path", "statement": "After a successful equistore.io.save(path, tensor), equistore.io.load(path) gives the tensor map back, for all four choices of use_numpy in the two calls; save writes the file which it announces (path, with .npz at the end) and does not change any other file. The tensor map can also be loaded with all other paths which lead to the same file, and after any number of other calls of save for other files.", "quantifier": "all paths, all links, all files which exist before, all tensor maps which both implementations can store, all outcomes of save", "why_tests_cant": "Tests use a few well-behaved names ending with .npz and an empty directory; the claim is about all names, including those without the extension or with a NUL, and all previous contents of the directory.", "anchors": ["equistore/io.py: load, save, _read_npz, _tensor_map_to_dict", "src/c_api/io.rs: eqs_tensormap_load, eqs_tensormap_save"]}
{"id": "C81", "title": "Keys and components can be moved in any order", "statement": "Calling keys_to_samples then components_to_properties gives the same tensor map as calling components_to_properties then keys_to_samples with the same arguments, and one order succeeds if and only if the other one does.", "quantifier": "all valid tensor maps with any arrays, all names to move, all components, with and without sorting, all iteration orders of hash maps", "why_tests_cant": "compares two programs on every tensor map, with any number of blocks, components and gradients; the orders differ only for blocks without properties or with an empty component", "anchors": ["src/tensor/keys_to_samples.rs: keys_to_samples", "src/tensor/mod.rs: components_to_properties", "src/blocks.rs: components_to_properties"]}
{"id": "C82", "title": "Keys can be moved to samples and to properties in any order", "statement": "Calling keys_to_samples with some names of the keys, then keys_to_properties with other names, gives the same tensor map as keys_to_properties then keys_to_samples with the same arguments, and one order succeeds if and only if the other one does.", "quantifier": "all valid tensor maps with any arrays, all disjoint sets of names to move, with and without sorting in the first call, all iteration orders of hash maps", "why_tests_cant": "compares two programs on every tensor map, with any number of blocks, keys and gradients; whether the orders agree depends on which combinations of key values exist, and in which order", "anchors": ["src/tensor/keys_to_samples.rs: keys_to_samples", "src/tensor/keys_to_properties.rs: keys_to_properties"]}
{"id": "C83", "title": "The Python methods move the names they are given", "statement": "keys_to_samples, keys_to_properties and components_to_properties in Python, called with a string, a list of strings, or labels, have the effect and the outcome of the function of the library on exactly these names (and entries, for labels): a failure of the library is an EquistoreError, and any other argument raises without changing the tensor map.", "quantifier": "all tensor maps, all strings, lists of strings and labels given as argument, all iteration orders of hash maps", "why_tests_cant": "quantifies over all strings and labels; the conversions go through labels without entries, C strings and arrays of pointers", "anchors": ["equistore/tensor.py: TensorMap.keys_to_samples", "equistore/tensor.py: TensorMap.keys_to_properties", "equistore/tensor.py: TensorMap.components_to_properties", "equistore/tensor.py: _normalize_keys_to_move", "equistore/tensor.py: _list_or_str_to_array_c_char"]}
{"id": "C84", "title": "A Python block has the labels, array and gradients it was given", "statement": "TensorBlock(values, samples, components, properties) succeeds exactly when the shape of the array matches the labels and the labels are acceptable; samples, components and properties of the new block then have the names and entries of the labels it was created with, in the same order. After add_gradient succeeds, gradients_list, has_gradient and gradient find the gradient, its labels and array are the ones given, its properties are the ones of the values, and nothing else changed; if it fails nothing changed.", "quantifier": "all arrays and labels, all blocks with any number of components and gradients, all parameters", "why_tests_cant": "quantifies over all labels obtained in any way, and over blocks with any number of components and gradients", "anchors": ["equistore/block.py: TensorBlock.__init__", "equistore/block.py: TensorBlock.add_gradient", "equistore/block.py: TensorBlock.samples, components, properties", "equistore/block.py: TensorBlock.gradients_list, has_gradient, gradient, gradients", "equistore/block.py: Gradient.samples, components, properties"]}
{"id": "C85", "title": "A Python tensor map has the keys and blocks it was given", "statement": "TensorMap(keys, blocks) succeeds exactly when the keys are acceptable, there is one key for each block, and any two blocks have the same names for samples, components and properties, and the same gradients with the same names. The keys of the new tensor map then have the names and entries of the keys it was created with, in the same order, and its length, block(i) and iteration give every block with its key, in the order of the list.", "quantifier": "all keys obtained in any way and all lists of blocks, including the empty list", "why_tests_cant": "quantifies over all keys obtained by any sequence of indexing operations and over lists of any number of blocks", "anchors": ["equistore/tensor.py: TensorMap.__init__, keys, __len__, __iter__, block", "src/c_api/tensor.rs: eqs_tensormap", "src/tensor/mod.rs: TensorMap::new"]}
{"id": "C86", "title": "sample_names, components_names and property_names describe every block", "statement": "sample_names, components_names and property_names give the names of the samples, components and properties of every block of the tensor map, and raise an EquistoreError if there is no block. After keys_to_samples the moved names are at the end of sample_names; after keys_to_properties they are at the start of property_names; after components_to_properties the moved names are removed from components_names and are at the start of property_names; everything else is as before.", "quantifier": "all tensor maps, all successful moves", "why_tests_cant": "the three properties read only the first block: that they describe all blocks, and what they give after a move, must hold for any number of blocks and any keys", "anchors": ["equistore/tensor.py: TensorMap.sample_names, components_names, property_names", "equistore/tensor.py: TensorMap.keys_to_samples, keys_to_properties, components_to_properties"]}
{"id": "C87", "title": "Printed blocks and gradients show their names", "statement": "repr of a block never fails and shows the names of its samples, components and properties and the parameters of its gradients, in order; repr of a gradient never fails and shows its parameter and the names of its samples, components and properties. Two blocks with the same text have the same names and gradients, and two gradients with the same text have the same parameter and names.", "quantifier": "all blocks, with any names, number of components and gradients; all pairs of blocks and of gradients", "why_tests_cant": "that different names never give the same text must hold for all pairs of blocks", "anchors": ["equistore/block.py: TensorBlock.__repr__", "equistore/block.py: Gradient.__repr__"]}
{"id": "C88", "title": "The library used from Python has the types of all functions", "statement": "Whenever a thread gets the shared library (the first time anything of equistore is used, and each later time), all functions in it have their argument and result types, and all threads get the same library object.", "quantifier": "all interleavings of all threads using the library and setting its path, all computers (files, platforms, libraries with and without all functions)", "why_tests_cant": "the result depends on when other threads run between the lines of the first use; a test sees one interleaving", "anchors": ["equistore/_c_lib.py: LibraryFinder.__call__, _lib_path", "equistore/_c_api.py: setup_functions"]}
{"id": "C89", "title": "The library is loaded from the path which was set", "statement": "_set_equistore_library_path(path) succeeds as long as no path was set and the library was not used, and raises ValueError afterwards. After it succeeded, the library is only ever loaded from this path, and using it only fails if the file can not be loaded or lacks a function. If it is not called, the library is the one installed next to the Python files.", "quantifier": "all interleavings of all threads, all paths, all computers", "why_tests_cant": "the path can be set while another thread is between two lines of the first use", "anchors": ["equistore/_c_lib.py: _set_equistore_library_path, _lib_path, LibraryFinder.__call__"]}
{"id": "C90", "title": "A library which can not be found gives an ImportError", "statement": "If no path was set and the library installed next to the Python files is missing or not usable, or the platform is unknown, each use of equistore raises ImportError, and none returns.", "quantifier": "all interleavings of all threads, all computers, all numbers of attempts", "why_tests_cant": "must hold for the second and all later attempts, and in all interleavings; tests run where the library exists", "anchors": ["equistore/_c_lib.py: _lib_path, LibraryFinder.__call__"]}
{"id": "C91", "title": "On Windows only DLLs for the pointer size of Python are used", "statement": "On Windows a file is accepted as the library if and only if it starts as a DLL and was made for the processor of this Python (32-bit or 64-bit x86); all other files are refused with an ImportError.", "quantifier": "all contents of the file, all architectures", "why_tests_cant": "ranges over all byte strings; tests do not run on files of other architectures", "anchors": ["equistore/_c_lib.py: _check_dll"]}
{"id": "C92", "title": "Arrays are only given to the implementation which made them", "statement": "A program can use arrays of several implementations (Rust ndarray, numpy, torch, user-provided callbacks). No operation gives an array of one implementation to the callbacks of another one: what an operation on a tensor map does, and the tensor map it leaves, never depends on what callbacks do with pointers to something else. Gradients of another implementation than the values are refused.", "quantifier": "all sets of implementations with different origins, all behaviours of callbacks given a wrong pointer, all tensor maps, operations and sequences of operations, all builds and hash orders", "why_tests_cant": "what happens with a wrong pointer is undefined, and ranges over all combinations of implementations in the blocks of a tensor map", "anchors": ["src/data.rs: eqs_array_t::move_samples_from, rust_array_move_samples_from", "src/blocks.rs: TensorBlock::add_gradient", "src/tensor/mod.rs: TensorMap::new", "src/tensor/keys_to_samples.rs: merge_blocks_along_samples", "src/tensor/keys_to_properties.rs: merge_blocks_along_properties", "equistore/data.py: _eqs_array_move_samples_from, _object_from_ptr"]}
{"id": "C93", "title": "In Python arrays are read as what they are", "statement": "Reading the array of a block in Python gives the object it was made from if it was made in Python, a view of the memory if it was made by the Rust library, and raises a ValueError naming its origin otherwise (in particular if its origin is not known because the callback failed). No other pointer is ever used as a Python object. This does not depend on which threads register origins first, or on other libraries registering origins with other names, and reading always ends.", "quantifier": "all histories of threads wrapping and reading arrays, interleaved at every access to a global variable and every call, with any other implementations of arrays", "why_tests_cant": "ranges over all schedules of threads and all other libraries in the process", "anchors": ["equistore/data.py: _register_origin, _numpy_origin, _torch_origin, _rust_origin, eqs_array_to_python_object, eqs_array_was_allocated_by_python, data_origin", "src/data.rs: register_data_origin"]}
{"id": "C94", "title": "Python declares the C functions with the types of the header", "statement": "For every header, the module written by the declarations script declares to ctypes exactly the functions and structures of the header whose names start with eqs_, in the same order, each with the arguments, the result and the fields it has in C (size and sign of numbers, what pointers point to, what function pointers take and return); or the script, or the import of the module, raises an exception. The committed module is the one written for the committed header, and can be imported.", "quantifier": "all valid C headers made of functions, typedefs, structures and enumerations", "why_tests_cant": "ranges over all headers and all the types they can use; a wrong declaration shows up as silent memory corruption", "anchors": ["scripts/generate-declarations.py: AstVisitor, c_type_name, type_to_ctypes, funcdecl_to_ctypes, generate_structs, generate_functions", "equistore/_c_api.py: setup_functions", "include/equistore.h"]}
{"id": "C95", "title": "Iterators know how many items are left", "statement": "Iterators over labels (iter and iter_fixed_size) and over tensor maps (iter and iter_mut) visit all items in order, and at any point during the iteration len() is the number of items which have not been visited yet and lies within the bounds given by size_hint(). len() of the parallel iterators is the number of pairs they visit.", "quantifier": "all labels and all valid tensor maps, after any number of calls to next()", "why_tests_cant": "tests iterate with for loops over small labels; len() must be right for labels of any size and after any number of steps", "anchors": ["src/labels.rs: Iter, FixedSizeIter, ParIter, Labels::iter, Labels::iter_fixed_size", "src/tensor/iter.rs: Iter, IterMut, ParIter, ParIterMut"]}
{"id": "C96", "title": "The library and Python agree on the shape of arrays", "statement": "The shape the library has for a numpy array stored in a block is the shape of this array as a Python program sees it, whatever operations are done on the tensor map (successful or not) and whatever the program does with the arrays it gets from the blocks. Operations, new blocks and files are therefore what they would be if the library was looking at the arrays themselves.", "quantifier": "all tensor maps with numpy arrays and all sequences of operations and in-place changes of the arrays", "why_tests_cant": "the shape is stored twice and must stay the same after every possible history of callbacks and in-place changes", "anchors": ["equistore/data.py: ArrayWrapper, _eqs_array_shape, _eqs_array_reshape, _eqs_array_swap_axes, _eqs_array_create, _eqs_array_copy, _eqs_array_move_samples_from"]}
{"id": "C97", "title": "Label values are the numbers they are made from", "statement": "Converting an integer (u32, i32, usize or isize) to a label value gives a value which is this number if it can be represented as a signed integer with 32 bits, and panics otherwise; no number is silently changed. Reading a label value as isize or i32 gives the number; reading it as usize does if it is not negative, and never gives a valid position otherwise.", "quantifier": "all numbers of all integer types, on computers with 32 and 64 bits, with and without debug assertions", "why_tests_cant": "ranges over all integers; the interesting ones are at the limits of the types, and differ between debug and release builds", "anchors": ["src/labels.rs: LabelValue, From<u32>, From<i32>, From<usize>, From<isize>, LabelValue::usize, LabelValue::isize, LabelValue::i32"]}
{"id": "C98", "title": "Printed labels show their names and entries", "statement": "Printing labels in Rust with {:?} never panics. The text has a line with all names and a line for each entry, from which the names and all values can be read, so that different labels are never printed in the same way. Values which are not longer than the names are below their names.", "quantifier": "all labels which can be built", "why_tests_cant": "ranges over all names and all values, including values which are longer than the column", "anchors": ["src/labels.rs: Debug for Labels"]}
{"id": "C99", "title": "Read-write access to blocks keeps tensor maps valid", "statement": "Whatever a Rust program writes through the references given by block_mut, iter_mut, values_mut, gradient_mut and gradients_mut, the tensor map stays valid: it keeps its keys, its number of blocks, the gradients and number of components of each block, and the labels of each array fit its shape. A write changes the values or gradient it was made for and nothing else.", "quantifier": "all valid tensor maps and all sequences of writes of all basic blocks a program can have", "why_tests_cant": "the references give access to all fields; every sequence of assignments has to be considered", "anchors": ["src/blocks.rs: TensorBlockRefMut, TensorBlock::values_mut, ImmutableVec", "src/tensor/mod.rs: TensorMap::block_mut", "src/tensor/iter.rs: TensorMap::iter_mut"]}
{"id": "C100", "title": "The list of gradients given to C can be read until the block is dropped", "statement": "The list of names set by eqs_block_gradients_list (and the names in eqs_labels_t) contains the names of the gradients in the order in which they were added, and can be read until the block (or the labels) are dropped, whatever happens to other blocks and labels, and if gradients are added to this block in between.", "quantifier": "all programs making, copying and dropping blocks and labels and adding gradients, all lists they ask for, all sequences of calls afterwards, all behaviours of the memory allocator when a vector grows", "why_tests_cant": "a dangling pointer often still shows the old bytes, and vectors only move after a certain number of gradients and depending on the allocator", "anchors": ["src/c_api/blocks.rs: eqs_block_gradients_list", "src/blocks.rs: TensorBlock::add_gradient, gradient_parameters_c", "src/utils.rs: ConstCString", "src/c_api/labels.rs: TryFrom<&Labels> for eqs_labels_t"]}
{"id": "C101", "title": "The memory of names is freed exactly once", "statement": "The strings and vectors storing the names of labels and gradients are never used after they were freed, never freed twice, never overrun, and all freed when the blocks and labels are dropped; also if making a name panics because of a NUL in it, which changes nothing else. A stored name reads back as the same string, and two names are equal exactly if the strings are.", "quantifier": "all programs making, copying and dropping blocks and labels and adding gradients, in any order, with any strings as names, including calls which panic", "why_tests_cant": "leaks and double frees depend on the order of all calls and on panics in the middle of making names, and are silent in most runs", "anchors": ["src/utils.rs: ConstCString::new, as_c_str, as_str, Drop, Clone, PartialEq", "src/blocks.rs: TensorBlock::add_gradient", "src/labels.rs: LabelsBuilder::finish"]}
{"id": "C102", "title": "Threads can use data origins at the same time", "statement": "Any number of threads can register data origins, ask for the names of origins and ask arrays of the crate for their origin (which registers it the first time) at the same time. Whatever the schedule, what the calls return is what they would return if made one after the other, in an order in which a call which returned before another one was made comes first. So two calls get the same id exactly if they asked for the same name, and once an id was returned every thread reads its name. No call panics, there is no deadlock, and without new calls all calls return after a bounded number of steps.", "quantifier": "all numbers of threads, all sequences of calls in each thread, all schedules of the steps of the calls (the two static variables, the static registry, its lock, each comparison of names, and returning), including the ones which stop at any point", "why_tests_cant": "the number of schedules is unbounded, and wrong results need rare ones: two threads using the first array or registering the same name at the same moment", "anchors": ["src/data.rs: REGISTERED_DATA_ORIGIN, register_data_origin, get_data_origin, NDARRAY_DATA_ORIGIN, DUMMY_DATA_ORIGIN, Array::origin"]}
{"id": "C103", "title": "Lists without elements can be given to the C API as NULL", "statement": "Wherever the C API takes a list as a pointer and a length (values of labels, components of a block or gradient, blocks of a tensor map, values to look up, names of variables, memory for indexes, shape and data given by the callbacks of an array), a list which can be read at this pointer is used as this list, and NULL with length zero is the list without elements. In particular the structure the library gives for labels without entries, in which the values are NULL, can be given back to it.", "quantifier": "all lists, all pointers to memory with at least as many elements, NULL for lists without elements, all functions of the C API with such a parameter", "why_tests_cant": "undefined behaviour for NULL usually does not show in a test: it depends on the compiler and on what it assumes about slices", "anchors": ["src/c_api/labels.rs: TryFrom<&eqs_labels_t> for Labels, eqs_labels_position", "src/c_api/blocks.rs: eqs_block, eqs_block_add_gradient", "src/c_api/tensor.rs: eqs_tensormap, eqs_tensormap_blocks_matching, eqs_tensormap_components_to_properties", "src/data.rs: eqs_array_t::data, eqs_array_t::shape"]}
{"id": "C104", "title": "An eqs_array_t made from a Rust array does what the array does", "statement": "A program using values of a type implementing the Array trait through eqs_array_t (made with new, create and clone; used with origin, shape, data, reshape, swap_axes, move_samples_from, as_array and as_array_mut; ended with drop) gets the same results as a program using the values directly: the value of the method, or for a panic inside of the method an error with the status of internal errors, where eqs_last_error is the message of the panic. No memory is used after it was freed or outside of what was allocated, each array is freed once, and after all arrays were dropped no memory is left.", "quantifier": "all types implementing the trait, all sequences of operations on any number of arrays, including those where methods panic", "why_tests_cant": "memory errors do not always show; all interleavings of making, moving, failing and dropping arrays, and implementations of the trait written by users", "anchors": ["src/data.rs: eqs_array_t::new, raw_copy, origin, data, shape, reshape, swap_axes, create, move_samples_from, as_array, as_array_mut", "src/data.rs: Clone for eqs_array_t, Drop for eqs_array_t", "src/data.rs: rust_array_origin, rust_array_shape, rust_array_reshape, rust_array_swap_axes, rust_array_create, rust_array_data, rust_array_copy, rust_array_destroy, rust_array_move_samples_from"]}
{"id": "C105", "title": "The installed library is found from CMake", "statement": "find_package(equistore) accepts an installed library exactly if it has the pointer size of the project and is suitable for the request: any version without one, the same version with EXACT, a compatible version for a single version (not older, with the same major version, and before 1.0 the same minor version), and a version inside of the range for a range of versions. find_package can be used in every directory of a project which needs the library.", "quantifier": "all installed versions, pointer sizes, requests (versions with any number of components, ranges with both kinds of upper end), and all trees of directories with find_package at any places", "why_tests_cant": "Tests find one installed version with one request in one directory; compatibility is a relation between all pairs of versions, and whether configuring works depends on where in the tree the other calls are.", "anchors": ["cmake/equistore-config-version.in.cmake", "cmake/equistore-config.in.cmake", "CMakeLists.txt: configure_package_config_file, configure_file"]}
{"id": "C106", "title": "The packages have the version of the sources", "statement": "The version of the Python package is the one of the first line for it in Cargo.toml if the sources are a release (the last tag is the current commit) or git is not available. For other commits it is this version followed by .dev and the number of commits since the last tag, or since the first commit if there are no tags. CMake uses the same version from Cargo.toml.", "quantifier": "all contents of Cargo.toml with a line for the version, all versions, and all histories in git (tags, first commits and number of commits), also without git", "why_tests_cant": "The version depends on the history of the repository where the package is built; tests run for the history of one checkout, which usually is not a release.", "anchors": ["setup.py: get_version", "CMakeLists.txt: EQUISTORE_VERSION", "Cargo.toml: version"]}
{"id": "C107", "title": "Python reads and writes the elements of arrays of the library", "statement": "An array made by the library (in Rust) in row-major order, with at least one axis, is seen in Python with the same shape and the same element at each index; assigning to an element in Python changes this element in the library and no other one. Indexes outside of the shape raise. Arrays in another order raise instead of being read wrongly. Arrays for constant memory (the values of labels) can be read, and assigning to them raises and changes nothing.", "quantifier": "all arrays (shapes with any number of axes, also without elements, and all strides), all indexes and values", "why_tests_cant": "Tests read a few arrays of fixed shapes; that the position computed by Python is the one used by the library, that no other element is changed, and the special case for arrays without elements, matter for all shapes and indexes.", "anchors": ["equistore/utils.py: _ptr_to_ndarray, _ptr_to_const_ndarray", "equistore/data.py: _RustNDArray", "src/c_api/data.rs: eqs_get_rust_array"]}
{"id": "C108", "title": "The functions in an eqs_array_t made by the library can be called from C", "statement": "A program in C calling the functions in an eqs_array_t made from a Rust array gets the value of the method of the array, or the status of internal errors and the message of the panic if it panicked. If one of the pointers to arrays, to results or to the structure for a new array is NULL, the status is the one of invalid parameters, the first such pointer is named in eqs_last_error, nothing is written and no array changes. Arrays in C can be NULL if they have no elements. A new array has its own memory; the one which was in the structure for the new array is freed. destroy(NULL) does nothing.", "quantifier": "all calls of all functions with all combinations of pointers, all arrays in memory, all implementations of the Array trait with data for their shape and panic messages without NUL", "why_tests_cant": "undefined behaviour often shows nothing in a test; all combinations of NULL pointers, sizes and contents of uninitialised memory", "anchors": ["src/data.rs: rust_array_origin, rust_array_shape, rust_array_reshape, rust_array_swap_axes, rust_array_create, rust_array_data, rust_array_copy, rust_array_destroy, rust_array_move_samples_from", "src/data.rs: eqs_array_t::new, Drop for eqs_array_t", "src/c_api/status.rs: check_pointers, catch_unwind"]}
{"id": "C109", "title": "Printing of panics can be disabled, and asked for again", "statement": "After eqs_disable_panic_printing returned (called any number of times, from any threads), a panic prints nothing, unless the environment variable RUST_BACKTRACE is set to something else than 0; then, and in programs which did not call the function, the panic hook of the program (the one it installed last, or the one of Rust) is called exactly once for each panic. Calling the function never ends the process.", "quantifier": "all histories of calls, panics, hooks installed by the program and values of RUST_BACKTRACE, in all threads and all interleavings", "why_tests_cant": "ranges over the number of calls, what was installed before, and all interleavings of the two steps of the function in several threads", "anchors": ["src/c_api/mod.rs: eqs_disable_panic_printing", "equistore/_c_lib.py: LibraryFinder.__call__"]}
{"id": "C110", "title": "What is loaded is what the entries of the file say", "statement": "Whatever the file given to load, if a tensor map is loaded then it is valid, and the file contains each of its parts (keys, and for all blocks the data, samples, components and properties, and for all gradients the data, samples and components) in the entry with the documented name of this part; the blocks have exactly the gradients for which the file has a data entry in block 0. Conversely a file which contains all parts of a valid tensor map under these names is loaded as this tensor map, and as no other one: nothing else in the file matters, neither other entries, nor the order of entries, nor the order of the hash maps of the reader.", "quantifier": "all files (any entries with any bytes, in any order, repeated or not), all tensor maps, all orders of hash maps", "why_tests_cant": "ranges over all files, including those not written by this library, and all tensor maps", "anchors": ["src/io/mod.rs: load", "src/io/mod.rs: read_data", "src/io/labels.rs: read_npy_labels"]}
{"id": "C111", "title": "A damaged entry of a file is reported", "statement": "When one entry of a file which can be loaded goes missing or can not be read any more, while all other entries stay as they are, loading the file fails in the way in which reading this entry fails: it is reported as an I/O error if only the beginning of the entry is left (wherever it was cut), as a serialization error if there are more bytes after its end, and as a serialization error if the entry is missing. A tensor map is never loaded with a part missing or changed.", "quantifier": "all files which can be loaded, all their entries, all ways to damage one entry, all orders of hash maps", "why_tests_cant": "ranges over all loadable files, whoever wrote them, all entries and all places where they can be cut or continued", "anchors": ["src/io/mod.rs: load", "src/io/mod.rs: read_data", "src/io/mod.rs: check_for_extra_bytes", "src/io/labels.rs: read_npy_labels", "src/io/npy_header.rs: Header::from_reader"]}
{"id": "C112", "title": "Indexing labels in Python gives the entries asked for", "statement": "labels[start:stop:step], labels[[2, 0, -1]] and labels[[\"b\", \"a\"]] give labels with exactly the entries at the positions of the slice or of the list, in this order and with the same names (negative positions count from the end), respectively with the values of the given names of all entries; impossible positions, names and steps raise an exception. This also holds for the results of other indexing, in any sequence. All labels obtained in this way contain different entries, as documented, and asarray gives these entries.", "quantifier": "all labels created in Python or given by the library, all sequences of slices (with any positive or negative bounds and steps), lists of positive or negative positions and lists of names", "why_tests_cant": "Views of views have offsets and strides which depend on the whole sequence of operations; tests index a few labels once.", "anchors": ["equistore/labels.py: Labels, Labels.__array_finalize__, Labels.asarray"]}
{"id": "C113", "title": "Labels do not change after they have been created", "statement": "Labels always keep the names and the entries they were created with, whatever a program does afterward with them, with the array they were created from, and with views of both. Labels given to the library are copied: the library keeps the entries as they were at this time, different from each other, and labels taken from the library always show them. Assigning to labels taken from the library raises an exception and changes nothing.", "quantifier": "all Python programs: any sequence of creating arrays, views, copies and labels, indexing, asarray, assigning to elements of arrays and of labels, giving labels to the library and taking them from it", "why_tests_cant": "Whether an assignment changes some labels depends on which of the earlier operations made a copy, for any history of views of views; tests only compare labels right after creating them.", "anchors": ["equistore/labels.py: Labels.__new__, Labels.asarray, Labels._as_eqs_labels_t, Labels._from_eqs_labels_t", "equistore/utils.py: _ptr_to_const_ndarray", "src/c_api/labels.rs: Labels::try_from"]}
{"id": "C114", "title": "A library built without serialization says so and changes no file", "statement": "If the library was built without serialization (the default of the crate), saving and loading never succeed. They report a serialization error which says that serialization was not enabled whenever the file could be opened, and the error of the parameters or of the system otherwise. As they can not do anything, they leave all files as they were.", "quantifier": "all sequences of calls to save and load from any threads, all paths (including NULL and invalid UTF-8), all tensor maps and all files", "why_tests_cant": "The tests in the repository are built with serialization; which files are still intact after failing calls is a statement about all files and histories of calls.", "anchors": ["Cargo.toml: features", "src/lib.rs: io::load, io::save without the feature serialization", "src/c_api/io.rs: eqs_tensormap_load, eqs_tensormap_save"]}
{"id": "C115", "title": "The C API does to what is behind the pointers what the Rust functions do", "statement": "At any point of a program which follows the rules of the C API, each function which takes pointers to blocks and tensor maps acts on what the program can see behind these pointers like the Rust function acts on the same labels, names and arrays. A new block or tensor map is the one Rust makes from the labels and contents which were given; a changed block or tensor map is the one Rust leaves behind (for a block inside a tensor map, this tensor map with only this block changed), also when the function fails; reading functions return the labels, arrays, keys, positions, names and file contents of what is seen and change nothing. The outcome is the outcome of Rust. If labels are not valid, the first of them gives the error, and what the program sees behind the block or tensor map is the same as before.", "quantifier": "all programs following the rules up to any point, all types of arrays with any callbacks, all labels, names (as C strings), archives and orders of hash maps which depend on the names only", "why_tests_cant": "Each C function rebuilds the arguments for Rust from pointers, and takes ownership of arrays: that nothing is lost, swapped or attached to the wrong block has to hold for all histories of the heap, labels and arrays.", "anchors": ["src/c_api/blocks.rs: eqs_block, eqs_block_labels, eqs_block_data, eqs_block_add_gradient, eqs_block_gradients_list", "src/c_api/tensor.rs: eqs_tensormap, eqs_tensormap_keys, eqs_tensormap_block_by_id, eqs_tensormap_blocks_matching, eqs_tensormap_keys_to_properties, eqs_tensormap_components_to_properties, eqs_tensormap_keys_to_samples", "src/c_api/io.rs: eqs_tensormap_load, eqs_tensormap_save"]}
{"id": "C116", "title": "Names of data origins survive the C API", "statement": "A name given to eqs_register_data_origin as a NUL-terminated UTF-8 string is registered, and after any further calls of any threads, eqs_get_data_origin writes exactly the same bytes followed by a NUL to every buffer of at least this size, and nothing behind the buffer. Registering the same bytes again from any memory gives the same number, other bytes give another number, and numbers never given out have the name \"unregistered origin\". Calls with NULL pointers, names which are not UTF-8, or non-empty buffers which are too small return an error status, and leave the registered names and the memory of the caller as they were.", "quantifier": "all sequences of calls by any threads, all pointers, all byte strings, all buffers and sizes, debug and release builds", "why_tests_cant": "all histories of calls, all names and all buffer sizes", "anchors": ["src/c_api/data.rs: eqs_register_data_origin, eqs_get_data_origin", "src/c_api/utils.rs: copy_str_to_c", "src/data.rs: register_data_origin, get_data_origin"]}
{"id": "C117", "title": "Reading arrays of Rust from C", "statement": "eqs_get_rust_array gives the elements, the shape and the number of dimensions of every array made by ndarray in Rust which is in row-major order, and these are the ones the array's own functions give. All other arrays are refused with the status of internal errors and a message, also if they have no function for the origin or this function fails; a NULL pointer is refused with the status of invalid parameters and the name of the first such parameter. When a call is refused nothing is written and no array of Rust is used or changed. Without the ndarray feature everything is refused.", "quantifier": "all contents of memory, all types implementing the Array trait, all eqs_array_t structures (functions of Rust, of somebody else, or missing; any pointer) which do not pretend to have the origin of ndarray, all combinations of NULL pointers, both ways to compile the library", "why_tests_cant": "the functions in the structure can be any code in any language and can fail in any way; tests use the arrays of the crate", "anchors": ["src/c_api/data.rs: eqs_get_rust_array", "src/data.rs: eqs_array_t::as_array, eqs_array_t::origin"]}
{"id": "C118", "title": "The library which is installed is the one which was asked for", "statement": "CMake accepts a configuration exactly if the build type is debug, release or relwithdebinfo in any capitalization (or is missing in the main project, which means release) and cargo is found, runs and has at least version 1.53.0. Building and installing then installs a shared or static library, as asked for, made by this cargo, with debug assertions exactly if a debug build was asked for, for the target which was asked for, with the features needed by Python exactly if it is built for Python. The same holds for setup.py, which refuses all values of EQUISTORE_BUILD_TYPE other than debug and release.", "quantifier": "all build types, targets, options of CMake, versions of cargo, environment variables read by cargo and setup.py, names of libraries on the system, files left by earlier builds, and earlier runs of setup.py in the same directory", "why_tests_cant": "the result depends on the environment, the configuration and what earlier builds left in the directories, of which continuous integration only sees a few fresh ones", "anchors": ["CMakeLists.txt: CMAKE_BUILD_TYPE, RUST_BUILD_TARGET, CARGO_EXE, CARGO_BUILD_ARG, EQUISTORE_LOCATION", "setup.py: cmake_ext.run, EQUISTORE_BUILD_TYPE, RUST_BUILD_TARGET"]}
{"id": "C119", "title": "The header describes the library", "statement": "After every build the header include/equistore.h is the one which cbindgen makes for the files the library was built from: after the first build of a new copy whatever header was in it, after every change of a file the script has seen, and after a failure of cbindgen as soon as anything is changed; in all histories in which cbindgen works, nobody else changes the header, and new files are declared when they are made, the header is right after every build. Building never changes the sources.", "quantifier": "all sequences of builds and of writing, removing and creating files between them, all contents of files, all headers in the repository, everything cbindgen can generate, all failures of cbindgen", "why_tests_cant": "whether the script runs depends on the whole history of changes and builds in a directory; continuous integration always builds a new copy once", "anchors": ["build.rs: main"]}
{"id": "C120", "title": "An installed library always works from Python", "statement": "If the file of the library is where Python looks for it, can be loaded and has all the functions (and on Windows is a DLL for this Python), and no other path is set, then no use of the library from Python raises an exception while it is loaded, and every use gives the installed library. The same holds for a library at a path which was set before. Loading the library always ends, also when it fails, after a fixed number of steps of the thread.", "quantifier": "all computers, all histories and interleavings of calls of any number of threads", "why_tests_cant": "The first use of the library can be interleaved with those of other threads in unboundedly many ways; a test runs one of them, on one platform.", "anchors": ["equistore/_c_lib.py: LibraryFinder, _lib_path, _check_dll", "equistore/_c_api.py: setup_functions"]}
