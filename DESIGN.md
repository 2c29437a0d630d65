# Formal model of equistore in Lean 4

## 1. Approach

The Rust sources (and the Python functions named in section 5) are modelled function by function as total,
computable Lean functions in `lean/Verif/Model`. The properties of `properties.jsonl` are stated as theorems in
`lean/Verif/Props`, over a small vocabulary of specification predicates in `lean/Verif/Spec`, and are proved for
all inputs. Helper lemmas are in `lean/Verif/Lemmas`. Concrete witnesses (non-vacuity and counterexamples)
stand next to the theorems; concrete values shared by several of them are in `lean/Verif/Lemmas/Concrete.lean`.

Theorems are named `Cxx_...` after the property they belong to. `Cxx_..._partial` proves a part of a property
and says in its comment what is missing. `Cxx_..._counterexample` proves that the full statement is false of
the code, with a concrete execution of the model (section 4).

### 1.1 Outcomes

A Rust call has three outcomes: `Ok`, `Err`, panic. They are the three constructors of `Res`. Functions
with `&mut self` which can fail half-way (`Act`) return the new state and the outcome separately, so that
failure atomicity is a statement about the returned state and not true by construction. Functions accessing
memory of the C caller (`CAct`) have a fourth outcome: undefined behaviour (`none`).

### 1.2 Parameters

Everything the code does not decide by itself is a parameter of the model, and the theorems hold for all values of
these parameters.

* Array backend. `eqs_array_t` is a table of callbacks. The model is parameterised over a type class
  `ArrayLike` of callbacks with arbitrary behaviour (they may fail with any status, or panic when the
  function pointer is NULL). Label-level theorems hold for any backend; data-level theorems are about the
  `ndarray` backend (`NdArray`: shape and row-major elements).
* Hash order. The iteration order of `HashMap` and of the entries of an archive is an arbitrary
  permutation (`HashOrder`), so the theorems hold for all hash seeds.
* Build mode. `Build.debug` says whether `debug_assert!` and overflow checks are active.
* Byte order of the machine (`Endian`).
* The crate `py_literal` (`PyLiteral`: a parser and a formatter), with the laws `Spec.LawfulPy` where they are
  needed. `Model/PyFragment.lean` implements a fragment of this crate which satisfies the laws, so that they are
  not contradictory.
* Splitting of work by rayon (`Schedule`), interleaving of threads (lists of calls with a thread number).

### 1.3 Values

* Label values are `Int32`.
* `f64` values are 64-bit patterns (`BitVec 64`); the library only moves them.
* `usize` is `Nat`; where wrap-around matters (`copy_str_to_c`, `len() - 2`, `len() - 9`, sizes read from files)
  it is modelled explicitly (`usizeSub`, `usizeMul`, `checkedAdd`) for 64-bit platforms.
* Strings are Lean `String` (valid Unicode, as in Rust); bytes are `UInt8`.

## 2. Properties

For each property: the modelled functions, the vocabulary of the statement, the method of proof and the status.

| id | modelled functions | statement in terms of | proof | status |
|----|--------------------|-----------------------|-------|--------|
| C01 | `LabelsBuilder`, `Labels::count/iter/index`, `iter_fixed_size` | the list of entries given to the builder | representation invariant, induction over additions | proved |
| C02 | `Labels::position/contains` | the list of entries | same invariant | proved |
| C03 | `LabelsBuilder`, `is_valid_label_name` | `Spec.Identifier` | induction over additions | proved |
| C04 | `eqs_labels_t` conversions, `eqs_labels_position` | `Spec.Describes`: names and entries behind the pointers | case analysis, C01, C02 | proved |
| C05 | `check_data_and_labels`, `TensorBlock::new` | `Spec.ShapeMatches`, `Spec.ComponentsOk` | decision logic, induction over axes | proved |
| C06 | `add_gradient` | `Spec.GradientAcceptable` | decision logic; the returned state on errors | proved |
| C07 | histories of `add_gradient` | `Spec.BlockValid` | induction over the history | proved |
| C08 | same | first value of each gradient sample | false (section 4); preserved when given | partial |
| C09 | `components_to_properties` of basic blocks, blocks, tensor maps | `Spec.ComponentMoved`, `Spec.TensorValid` | loop invariants; laws of `reshape`/`swap_axes` (`Spec.LawfulArray`, proved for both Rust backends) | proved |
| C10 | same, `ndarray` | `Spec.ValuesMoved`: value at labels before and after; `Spec.ValuesRearranged`: where each value goes, for all positions; `Spec.OrderIrrelevant`: exactly when none changes place | index arithmetic of swap and reshape; for the converse, a block without repeated values shows the permutation | partial (false in general, exact condition in `C10_exact`) |
| C11 | same | equality of states | complete list of outcomes | partial (false for panics) |
| C12 | `TensorMap::new` | `Spec.Consistent` | decision logic, permutation of hash maps | proved |
| C13 | `blocks_matching` | `Spec.Agrees` | induction over keys and requested names | proved |
| C14 | `block_matching`, `block` | matching blocks of C13 | case analysis, distinct keys | proved |
| C15 | `iter`, `iter_mut`, `par_iter`, `par_iter_mut`, label iterators | list of pairs (key i, block i) | induction over trees of splits | proved |
| C16 | `remove_variables_from_keys`, `keys_to_*` | `Spec.remainingKey`, `Spec.FirstAppearances` | list reasoning | proved |
| C17 | `keys_to_samples` | `Spec.HasValue`: value at (sample, components, property) labels | refinement of the merge loops to the set of labelled values | partial (false for other orders of names) |
| C18 | `keys_to_samples` | counts and distinctness of samples | key parts of merged blocks are distinct | proved |
| C19 | `merge_samples` | union, lexicographic order, first appearance | sorting lemmas | proved |
| C20 | gradients in `keys_to_samples` | `Spec.SampleRenumbered`, `Spec.HasValue`; `Spec.HasBroadcastValue` to say where values go when the components differ | as C17; gradients with components of other sizes are replaced by the ones `ndarray` would make of them; the exact condition from gradients without repeated values | partial (false in release builds; `C20_broadcast` says what happens, `C20_exact` when labels are kept) |
| C21 | `keys_to_*` | equality of states, any backend | the state is only written at the end | proved |
| C22 | `keys_to_*` | equality of labels of merged blocks | check loops | proved |
| C23 | `keys_to_properties` | `Spec.HasValue` | as C17 with ranges of properties | partial (as C17) |
| C24 | same | zeros, nothing else than values and zeros | as C23 | proved |
| C25 | same | new property labels | list reasoning | proved |
| C26 | same with entries of the user | listed and not listed blocks | as C23 | partial (as C17) |
| C27 | gradients in `keys_to_properties` | as C20 | as C20 and C23 | partial (as C20, `C27_broadcast`, `C27_exact`) |
| C28 | sequences of operations | `Spec.TensorValid` | invariant, induction over operations | proved |
| C29 | all operations with two hash orders | `Spec.SameTensor` | relational induction | proved |
| C30 | `register_data_origin`, `get_data_origin` | histories of calls by threads | induction over histories (the mutex makes each call atomic: proved in C102) | proved |
| C31 | same | id 0 | false for the reserved name | partial |
| C32 | `npy_header.rs` | bytes of the header; round trip | arithmetic of padding; parser laws | proved |
| C33 | `write_npy_labels`, `read_npy_labels` | equality of labels | encoder/decoder | proved |
| C34 | `write_data`, `read_data` | shape and bit patterns | encoder/decoder | proved |
| C35 | `save`, `load` | `Spec.SameContent`, `Spec.SameTensor` | C33, C34, C36, loops over blocks | proved |
| C36 | names of entries | `Spec.Part` with an independent `Part.name` | injectivity of decimal numbers and paths | proved |
| C37 | readers | every strict prefix and every extension | lengths consumed by the reader | proved |
| C38 | `load` on arbitrary archives | `Spec.TensorValid` | constructors check everything | proved |
| C39 | both byte orders | equality of what is read; `C39_byte_order` gives the meaning of the bytes | encoder/decoder | proved |
| C40 | `load` | no panic | false, 8 kinds of files; exactly which contents of one file make reading it panic, for each build; no panic on all the others | partial |
| C41 | `catch_unwind`, statuses, last error | `Spec.statusCode`, `Spec.failureMessage`, interleavings of threads | induction over interleavings | proved |
| C42 | same | a status is returned | false for messages with NUL; iff otherwise | partial |
| C43 | `eqs_tensormap_blocks_matching` | buffer before and after | induction over the written indexes | proved |
| C44 | `eqs_get_data_origin`, `copy_str_to_c` | buffer before and after | case analysis | partial (false for size 0 in release) |
| C45 | `_call_with_growing_buffer`, `data_origin_name` (Python) | name returned | case analysis | partial (false above 1023 bytes) |
| C46 | `eqs_block_labels`, `eqs_block_gradients_list` | axes and shape | `Spec.BlockValid` | proved |
| C47 | all functions creating, moving and freeing arrays, blocks and tensor maps | `Spec.Run`: programs following the rules of the documentation (`Spec.Call.Allowed`, tracked by `Spec.Ledger`) | heap invariant, induction over programs | proved |
| C48 | `eqs_tensormap` | heap before and after | heap invariant | proved |
| C49 | `eqs_block_copy` | heap before and after; `Spec.look`, `Spec.Since` | heap invariant, frame property of all calls | proved |
| C50 | `TensorBlock::new`, `add_gradient`, `keys_to_*`, `components_to_properties` for two array implementations; numpy callbacks | `Spec.Implements`: what the documentation of `eqs_array_t` asks for | simulation: each function commutes with the view of arrays as shape and elements; for `ndarray` and numpy arrays also when gradient components have different sizes, moving the values is the same as moving values repeated first | partial (release builds: component sizes of gradients; for `ndarray` and numpy, only gradients without samples) |
| C51 | `rust_array_*` callbacks with shape, strides and memory (`Model/Strided.lean`); all operations on tensor maps | `Spec.InRowMajorOrder`: the element at each index is at its row-major position in memory | correctness of the in-place `reshape` on strides; invariant over operations; simulation of the `NdArray` backend | partial (false in general) |
| C52 | `save` as a sequence of writes, `eqs_tensormap_save`, `eqs_tensormap_load`, disks which fail (`Model/Files.lean`) | `Spec.SameContent` of what is loaded after the failure | order in which parts are written; what `load` needs; truncated files are rejected | partial (false for the gradients of a single block) |
| C53 | same, with other saves in between | `Spec.SameContent`, `Spec.OtherSaves` | C35, frame property | partial (false when the last flush fails) |
| C54 | same | files before and after | case analysis | partial (false after the file was created) |
| C55 | objects of `block.py`, `tensor.py`, `data.py` and who keeps whom alive (`Model/PyObjects.lean`), on top of the C API of C47 | `Spec.PyRun`: programs following some of the rules in `Spec.PyRule` | invariant relating objects, pointers and arrays; induction over statements | partial (false without the four rules) |
| C56 | same | arrays created, destroyed, and held by objects | same invariant, C47 | partial (false when `TensorMap()` refuses its arguments) |
| C57 | same | the state of the garbage collector | case analysis over statements | partial (false when a copy raises) |
| C58 | same | outcomes of the methods, for all programs | pointers only ever become NULL | proved |
| C59 | `Labels.__new__` on arrays of integers, with the structured dtype (`Model/PyLabels.lean`) | names and rows given, `Spec.Fits` | computation, distinct rows as in C04 | partial (false for integers over 32 bits) |
| C60 | indexing of structured arrays: memory, start, stride, fields; `_as_eqs_labels_t` | `Spec.Obtained`: labels obtained by any sequence of operations; `Spec.LibrarySees` | invariant: the view is a contiguous matrix; C04 | partial (false for fields and slices with a step) |
| C61 | `_from_eqs_labels_t`, `position`, `__contains__`, `asarray`, `as_namedtuples` | names and entries of the labels in the library, `Spec.IsEntry` | C05, C61 of the conversion; for labels made in Python or by indexing: the three ways to get labels | partial (false without entries, and for integers over 32 bits) |
| C62 | `block`, `blocks`, `blocks_matching` of `tensor.py` (`Model/PySelection.lean`) on top of `eqs_tensormap_blocks_matching` (C43) | `Spec.KeyIs`, `Spec.AskedFor`, `Spec.OnlyMatch`, `Spec.AllMatches`, `Spec.MatchIndexes`, `Spec.NotParameterNames` | C60, C43, C13 | partial (false when parameters are mixed, for positions over 64 bits, and for keys named as parameters) |
| C63 | `__iter__`, `__len__`, `keys` of `tensor.py` | keys and positions | computation, C61 | proved |
| C64 | `save`, `load` of `io.py` with numpy; `np.savez`, `np.load` | arrays as type, shape, order and bytes; archives as lists of names and bytes | names of entries, induction on the blocks and gradients; counterexamples for byte orders and long headers | partial |
| C65 | `io.py` and `src/io` | both implementations on the same archives | lemmas of C35 and C64 | partial |
| C66 | `TensorBlock::new`, `add_gradient`, `keys_to_*`, `components_to_properties` with callbacks which fail; `catch_unwind` | `Spec.MayFail`: each callback does what is documented, or fails with a status, or is missing (`NULL`, a panic naming the callback); the outcome of a callback is a function of the array and the arguments | simulation with arrays where failing callbacks are replaced by `ndarray`, then C50; counterexamples with concrete failing arrays | partial |
| C67 | `status.py`, `catch_exceptions` of `utils.py`; calls of several threads | the library as a list of callbacks with `?` or `expect`, threads with any schedule, `LAST_EXCEPTION` | invariant of the threads for every schedule; counting of exceptions; counterexamples | partial |
| C68 | `eqs_block_labels`, `eqs_tensormap_keys`, `eqs_tensormap_block_by_id` and all other calls | the heap of C46-C49; `Spec.Place` follows a block when it is moved, `Spec.Lives` are the histories in which labels are documented to be valid, `Spec.InMemory`; labels are identified with their content | each call keeps the labels of the block at a place (frame property of C49, C48, and induction over the loops of `components_to_properties`), induction over histories; concrete dangling labels | partial |
| C69 | `Labels._from_eqs_labels_t`, `TensorBlock._labels`, `Gradient._labels`, `TensorMap.keys` | Python programs of C55 which also take labels; labels have a parent, which is not deleted before them; `PySource.expires` says when labels should not be used any more | frame properties of C68 for each statement, invariant over programs; a dangling program for each condition | partial |
| C70 | `eqs_block`, `eqs_block_data`, and all functions changing blocks and tensor maps | programs of C47, following a block as in C68; `ChangesData` says which calls are meant to change an array | for each call, the handles of all parts of the block and the content behind them before and after it (frame property of C47, `addGradient_placeData`, `modify_data`, `modify_contents`), induction over the program | proved |
| C71 | all operations modifying tensor maps, `TensorBlock::new`, `add_gradient`, `save` | any type of arrays together with a flag; `move_samples_from` fails for arrays with the flag unset, `create` gives arrays with the flag set | forgetting the flag commutes with every function of the model (`SameCallbacks`), without assuming anything about arrays or tensor map; `FreshData` for the arrays afterwards | proved |
| C72 | callbacks of numpy arrays with axes, strides and memory (`Model/NumpyView.lean`), with `PyArray_Newshape` and `_attempt_nocopy_reshape` of numpy; all operations, `TensorBlock::new`, `add_gradient`, `save` | `Spec/NumpyView.lean`: tensor maps with the same labels, and arrays of the same shape with the same elements; data which can be read from C in row-major order | the groups of axes found by `_attempt_nocopy_reshape` keep the row-major order of elements; simulation of arrays without strides (`SameCallbacks`) | partial (false in general) |
| C73 | callbacks of numpy arrays with a `dtype` (`Model/NumpyTypes.lean`), the conversion to each type being a parameter; all operations, `TensorBlock::new`, `add_gradient`, `save` | `Spec/NumpyTypes.lean`: the tensor map without types, or rounded to a type; numbers which are numbers of all types in use | simulations (`SameCallbacks`) of arrays without types: for arrays with numbers of all types, for all arrays after rounding, and for all arrays forgetting the numbers | partial (false in general) |
| C74 | `keys_to_samples`, `keys_to_properties` and everything they call, for any arrays which implement the callbacks | `Spec/Outcome.lean`: `CanMoveToSamples`, `CanMoveToProperties`, in terms of names, keys, entries and gradients | for each function called by these two, it is proved when it succeeds (`Lemmas/MergeOutcome.lean`), then for all blocks and groups (`Lemmas/MoveOutcome.lean`); `Broadcasts` says which sizes arrays from Rust and numpy arrays accept, and gives the conditions for gradient components of different sizes (`Lemmas/BroadcastOutcome.lean`) | proved |
| C75 | `keys_to_samples` called once, or twice | `Spec/Moved.lean`: `MovedToSamples`, a complete description of the result; `SameTensor` | the description determines the tensor map, sorted or not (`Lemmas/Moved.lean`), and composes (`Lemmas/MovedTwice.lean`); success is transported through C74 (`Lemmas/MovedOutcome.lean`, `Lemmas/MovedFits.lean`) | partial: false if names are not in the order of the keys (C17), `C75_counterexample` |
| C76 | `TensorMap.__str__`, `__repr__`, `_print_labels`, as functions to lists of characters (`Model/PyPrint.lean`) | `Spec/PyPrint.lean`: reading a text as lines and words | lines and words of the produced text; numbers in decimal are injective; slices of the labels | partial: values which do not fit under their name are printed without a space, `C76_counterexample` |
| C77 | `TensorBlock.values`, `Gradient.data`, `_RustNDArray`, `eqs_array_to_python_object` (`Model/PyArrays.lean`) | Python programs of C55 which also take arrays and write to them; arrays have a block as parent, which is not deleted before them; `arrayExpires` says when arrays should not be used any more | frame properties of C70 for each statement, invariant over programs; a dangling program for each condition | partial |
| C78 | the callbacks of `equistore/data.py` for torch tensors, `_array_to_numpy` (`Model/Torch.lean`) | `Spec/Torch.lean`: `Tracked`, which arrays require gradients; elements are compared with numpy arrays | simulation of numpy arrays (`SameCallbacks`); new arrays do not require gradients and get them from the arrays moved to them (`Lemmas/Accumulates.lean`), views keep them (`Lemmas/Flags.lean`) | partial: saving never works, `C78_counterexample` |
| C79 | `keys_to_properties` without entries called once, or twice | `Spec/MovedProperties.lean`: `MovedToPropertiesInOrder`, a complete description of the result, and `MovedToProperties`, without the order of properties; `SameTensorUpToProperties` | the description determines the tensor map (`Lemmas/MovedProperties.lean`) and composes (`Lemmas/MovedPropertiesTwice.lean`); success is transported through C74 (`Lemmas/MovedPropertiesOutcome.lean`) | partial: false if names are not in the order of the keys (C23), `C79_counterexample` |
| C80 | `save` and `load` of `equistore/io.py` with their path (`Model/PyFiles.lean`), on top of C53, C64 and C65 | `Spec/PyFiles.lean`: `FileName`, the announced name; `Portable`, tensor maps which both implementations store | computation on names; C53, C64, C65 for the content | partial: false for paths without `.npz` and with NUL, `C80_counterexample`, `C80_counterexample_nul` |
| C81 | `keys_to_samples` and `components_to_properties`, in both orders | `SameTensor` between both results; success of one iff success of the other | the complete description of C75 is stable by moving a component before and after, whatever the permutation of C10 (`Lemmas/MovedComponents.lean`); success through C74 and C11 | partial: false without properties or with an empty component, `C81_counterexample`; one direction without conditions, `C81_keys_first` |
| C82 | `keys_to_samples` then `keys_to_properties` with other names, in both orders | `SameTensor` between both results; `Spec/MovedBoth.lean`: `MovedToBoth`, a complete description of the result, and `SameCombinations`, when both orders succeed | each order gives the description (`Lemmas/MovedBoth.lean`), which determines the tensor map (`Lemmas/MovedBothSame.lean`); success through C74 (`Lemmas/MovedBothOutcome.lean`) | partial: false when the combinations of key values differ, `C82_counterexample`; `C82_any_order_partial` says exactly when both orders succeed |
| C83 | `keys_to_samples`, `keys_to_properties`, `components_to_properties` of `equistore/tensor.py` and the conversions of their argument (`Model/PyMove.lean`), the entry points of the library | `Spec/PyMove.lean`: `CallsWith`, the function of the library on given names and entries, and `GivesNames` | the labels without entries and the arrays of C strings made by Python are read back by the library as the names (C04, C60) | partial: false for names with NUL and empty names, `C83_counterexample`, `C83_counterexample_empty` |
| C84 | `TensorBlock(...)`, `add_gradient`, the properties and gradient methods of `equistore/block.py` (`Model/PyBlock.lean`) | `Spec/PyBlock.lean`: `PartIs`, what Python shows for the values or a gradient, `GradientFits` | the conversions of labels in both directions (C60, C61) around C05 and C06 | partial: false for parameters with NUL, and for labels the library does not see as Python, `C84_counterexample`, `C84_counterexample_labels` |
| C85 | `TensorMap(...)` of `equistore/tensor.py` (`Model/PyTensor.lean`) | `Spec.LabelsAgree`, `Spec.Acceptable`, `Spec.Consistent` | C60, C61 around C07; iteration from C62 | partial: false for keys the library does not see as Python, `C85_counterexample` |
| C86 | `sample_names`, `components_names`, `property_names` (`Model/PyTensor.lean`) | `Spec.HasNames`, `Spec.BlockHasNames` | consistency of the blocks (C07), labels of merged blocks (C10, C11), of moved components (C09) | proved |
| C87 | `TensorBlock.__repr__`, `Gradient.__repr__` (`Model/PyPrintBlock.lean`) | `Spec.blockText`, `Spec.gradientText`, `Spec.shownList`: the text as Python writes lists of names | C84 for the labels; the lists can be read back because names are identifiers | partial: false for parameters with a quote, `C87_counterexample` |
| C88 | `LibraryFinder.__call__`, `_lib_path`, `setup_functions`, one step for each access to something shared by threads (`Model/PyLibrary.lean`) | `Spec.SetUp`: all functions of the object have their types; schedules are lists of events of any threads | invariants over all schedules: the object in the cache has all types, or a thread will set them | partial: true again in all schedules once no call is running, `C88_after_quiet_partial`; false when two threads use the library for the first time, `C88_counterexample`, or a function is missing, `C88_counterexample_missing` |
| C89 | `_set_equistore_library_path` and the same functions | `Spec.LoadedFrom`: the path the object was loaded from | invariants over all schedules | partial: false while another thread starts to use the library, `C89_counterexample` |
| C90 | the same functions, with files which are missing or refused | results of the events | invariants over all schedules | partial: false for the second use, `C90_counterexample`, `C90_counterexample_loads` |
| C91 | `_check_dll` | `Spec.startsAsDll`, `Spec.IntegerAt`, `Spec.machineOf`: the format of a DLL, byte by byte | case analysis, digits of integers, UTF-8 | partial: false for short files and bytes which are not UTF-8, `C91_counterexample` |
| C92 | `eqs_array_t` with several tables of callbacks (`Model/Mixed.lean`); what a callback does with a pointer to something else is an arbitrary function | outcome and tensor map for two such functions | merging blocks of one implementation commutes with forgetting the others | partial: false when blocks of different origins are merged, `C92_counterexample` |
| C93 | `data.py` lines 18-148 (`Model/PyOrigins.lean`): threads accessing global variables and the registry step by step | `Spec.ReadsAs`: what each kind of array should be read as | invariant over all histories; a measure for termination | partial: false for callbacks which write an origin and fail, `C93_counterexample` |
| C94 | `scripts/generate-declarations.py` (`Model/Declarations.lean`), and the declarations of `equistore.h` and `_c_api.py` (`Model/DeclarationsOfEquistore.lean`) | `Spec/Declarations.lean`: what C and `ctypes` mean by a type, both as a `Shape`; `Usual` headers | structural induction on types, induction on declarations | partial: false for typedefs of pointers and of some types of several words, `C94_counterexample`; proved for those where the first word is enough or unknown to `ctypes` |
| C95 | `next`, `size_hint` and `len` of the iterators in `labels.rs` and `tensor/iter.rs`, with the default methods of the Rust traits and `Zip` (`Model/Iterators.lean`) | `Spec/Iterators.lean`: `Reaches`, `Gives`, `KnowsItsLength` | induction on the items left, as an invariant of the state of the iterator | partial: `len` of tensor map iterators panics, `C95_counterexample` |
| C96 | `ArrayWrapper` with its separate copy of the shape, and its callbacks, in `equistore/data.py` (`Model/PyWrapper.lean`) | `Spec/PyWrapper.lean`: `PyStep`, `runSteps`, `ShapesAreKnown` | invariant kept by all callbacks, then simulation of `Model/Numpy.lean` for whole programs | partial: assigning `array.shape` is not seen by the library, `C96_counterexample` |
| C97 | the conversions between label values and integers in `labels.rs` (`Model/LabelValue.lean`), `usize` with and without debug assertions | `Spec/LabelValue.lean`: `IntType`, `Representable` | case analysis and arithmetic, for all numbers of each type | partial: the largest and the smallest number are refused, `C97_counterexample` |
| C98 | `Debug for Labels` in `labels.rs` (`Model/LabelsPrint.lean`) | `Spec/LabelsPrint.lean`: `ShowsEntries`, reading lines and words | induction on names and entries | partial: labels without names panic, `C98_counterexample` |
| C99 | `TensorBlockRefMut`, `values_mut`, `gradient_mut`, `block_mut` (`Model/Access.lean`): a write leaves any basic block the program has behind the reference | `Spec/Access.lean`: `runWrites`, `readAt`, `CanHave`, `OnlyElements`; `TensorValid` | induction on the writes, C28 for writes of elements | partial: all fields of `BasicBlock` are public, `C99_counterexample` |
| C100 | `eqs_block_gradients_list`, `names` of `eqs_labels_t`, the vectors of names and their memory (`Model/NamesMemory.lean`) | `Spec/NamesMemory.lean`: programs (`Run`, `Later`), what they expect (`Content`), reading memory in C | invariant: every block and labels owns its allocations, induction on the calls | partial: adding a gradient can move the vector, `C100_counterexample` |
| C101 | `ConstCString` in `utils.rs`, vectors of names in `blocks.rs` and `labels.rs` (`Model/NamesMemory.lean`): allocate, free, read; undefined behaviour is explicit | `Spec/NamesMemory.lean`: programs (`Run`), what they expect (`Content`) | the same invariant; panics while making names included | proved |
| C102 | registry of origins in `data.rs` with its `Lazy` variables and lock (`Model/OriginThreads.lean`): small steps of any number of threads | `Spec/OriginThreads.lean`: executions (`Exec`), sequential explanations (`Explains`) | invariant of all schedules giving a linearization; a rank decreasing in each step; justifies C30, which treats calls as atomic | proved |
| C103 | all uses of `from_raw_parts` (`Model/CSlices.lean`) | `Spec/CSlices.lean`: `GivesList`, `Documented`, `ListsWork` | each function with pointers is the function of the other models with lists | partial: undefined behaviour for `NULL`, `C103_counterexample` |
| C104 | `eqs_array_t` made from `Box<dyn Array>` with its memory, all callbacks in Rust and the functions calling them (`Model/RustArrays.lean`) | `Spec/RustArrays.lean`: programs `Cmd`, `directAll` (using the arrays), `runAll` (using `eqs_array_t`), `Agrees`, `Honest`, `Implements` | simulation: each variable of the program with arrays is the content of one box; induction over programs | partial: `Array` can be implemented such that data is shorter than the shape, `C104_counterexample`; panics with NUL, `C104_counterexample_nul` |
| C105 | the two files for `find_package`, and the variables of directories (`Model/FindPackage.lean`) | `Spec/FindPackage.lean`: `Before`, `Compatible`, `InRange`, `ShouldFind`, `findsIn` | induction over versions; mutual induction over directories and commands | partial: `find_package` in sibling directories fails, `C105_counterexample`; ranges, `C105_counterexample_range` |
| C106 | `get_version` of `setup.py` and the loop of `CMakeLists.txt` over `Cargo.toml`, where `git` is any function (`Model/Version.lean`) | `Spec/Version.lean`: `History`, `Answers`, `HasVersion`, `Expected` | induction over the text; case analysis on what `git` prints | partial: releases are called `.dev0`, `C106_counterexample`; CMake, `C106_counterexample_cmake` |
| C107 | `_ptr_to_ndarray`, `_ptr_to_const_ndarray` and `_RustNDArray.__new__`, with the strided arrays of C51 (`Model/PyPointers.lean`) | `Spec/Backend.lean`: `InShape`; `Spec/Layout.lean`: `InRowMajorOrder` | the position in row-major order is the one of the strides, and different for different indexes | proved; arrays without axes raise, `C107_scalar` |
| C108 | the callbacks of Rust arrays with all pointers a program in C can give, and what is in the structure for a new array (`Model/RustCallbacks.lean`) | `Spec/RustCallbacks.lean`: `FirstNull`, `Correct`, `Careful`, `Does` (what the method does) | cases over the functions; the memory stays well-formed, so that calls can follow each other | partial: `NULL` for arrays without elements, `C108_counterexample`, and structures which are not initialised, `C108_counterexample_uninitialised`, are undefined behaviour |
| C109 | `eqs_disable_panic_printing` as two steps, with the panic hook shared by all threads (`Model/PanicHook.lean`) | `Spec/PanicHook.lean`: `Happened` (all interleavings), `Asked`, `Disabled`, `ownHook`, `Expected` | invariants over all histories; the hooks form a chain, called by induction | partial: panics during a second call are printed, `C109_counterexample`; hooks can be lost, `C109_counterexample_lost`; `C109_counterexample_unwinding` |
| C110 | `load` with all its loops (`Model/Archive.lean`, as for C35) | `Spec/Loaded.lean`: `FileSays`, with `Part.stored` and `Says`; names of entries from `Spec/Archive.lean` | inversion of all steps of `load` for one direction, and `load_of` (the lemma behind C35) for the other one | proved |
| C111 | `load` and the readers of entries (`Model/Archive.lean`, `Model/Npy.lean`, `Model/NpyHeader.lean`) | `Spec/Damaged.lean`: `Damaged`, `SameExcept`, `WithoutGradient`; `Spec/Loaded.lean` | the outcomes of `load` for two files which differ in one entry are the same, or the second one is the failure (induction over all loops); readers use bytes from left to right (`Lemmas/Streams.lean`) | partial: a gradient can be lost silently, `C111_counterexample` |
| C112 | `PyLabels.getItem`, `sliceIndices`, `wrapIndex`, `asarray` (`Model/PyLabels.lean`) | `Spec/PyIndexing.lean`: `SliceTakes` (documented meaning of slices), `EntriesAt`, `ValuesOf`, `Contiguous` | invariant of all views (`PyLabels.Shows`): all elements of memory for each entry can be read, by induction over the operations; arithmetic of slices in both directions | partial: `asarray` after selecting names, repeated entries, `C112_counterexample` |
| C113 | `LabelsMemory.State`, `State.run` (`Model/LabelsMemory.lean`): memory shared between arrays, labels in Python and the library | `Spec/LabelsMemory.lean`: `Groups` (which objects may share memory, from the text of the program), `Later`, `Reached`, `State.shows` | invariants of all programs: views stay inside of memory, only memory of the library is read-only, each memory of numpy belongs to one group; positions of different values are different | partial: assignments to the array or the labels, `C113_counterexample` |
| C114 | `NoSerialization.saveFile`, `loadFile`, `Call.run` (`Model/NoSerialization.lean`): the C functions when the crate is built without the feature `serialization` | `Calls`, `Call.SavesTo`, `Says` in `Props/NoSerialization.lean` | cases of the parameters for each call, then induction over the calls. Partial: the full statement is false, `File::create` makes the file empty before the call fails |
| C115 | `eqsBlock`, `eqsBlockAddGradient`, `eqsTensormap`, `eqsKeysToProperties`, … (`Model/CHeap.lean`): the C functions on a heap of arrays, blocks and tensor maps | `Spec/CResults.lean`: `SeesTensor`, `SeesBlock`, `SeesArray` (what is behind a pointer), `Means`, `FirstInvalid` (labels), `Makes` | the invariant of the heap (C47) gives that all arrays exist; forgetting the addresses of arrays commutes with all functions of Rust (`Lemmas/SameCallbacks.lean`); what is written back to the heap looks like the result |
| C116 | `registerDataOriginC`, `getDataOriginAt`, `OriginCall.runAll` (`Model/COrigins.lean`): programs calling the two C functions with any pointers | `Spec.IsCString`; `COrigins.Reached` in `Props/COrigins.lean` | each call of a program is a call of the registry (C30) or changes nothing, by induction over the calls; then C30 and C44 |
| C117 | `RustCallbacks.getRustArray` (`Model/CRustArray.lean`): `eqs_get_rust_array` with any pointers, on the memory and the structures of C104 | `Spec/CRustArray.lean`: `Truthful` (the array does not pretend to come from `ndarray`), `IsNdarray` | cases of the function for the origin and of the pointer; arrays which are not `Truthful` are undefined behaviour (`C117_pretending`) |
| C118 | `configure`, `pythonConfigure` (`Model/CMakeBuild.lean`): the command and the file chosen by `CMakeLists.txt`, and the first run of CMake by `setup.py` | `Spec/CMakeBuild.lean`: what `cargo build` does (`parse`, `cargoBuild`, `install`), `AsksDebug`, `AsksRelease`, `Expected`, `RecentEnough` | lists of CMake by induction over the text; the arguments are parsed back by `parse`, the directory is compared with the one of `cargo` | partial: `C118_counterexample` and three more |
| C119 | `State.build`, `Edit.run`, `runAll` (`Model/BuildScript.lean`): `build.rs`, when `cargo` runs it, and changes of files between builds; `cbindgen` is any function which can fail | `Spec/BuildScript.lean`: `Describes`, `Touches`, `filesAfter`, `NewFilesDeclared`, `Careful` | invariant: the header is the one of the files, and files changed since the last run of the script do not exist; induction over the history | partial: `C119_counterexample` and two more |
| C120 | as C88 | `Spec.Installed`: the file is there, on Windows it is a DLL for this Python, it can be loaded and has all functions; `EndsDuring`: a call ends during some events | as C89, and each step of a call makes the number of remaining steps smaller | proved |

All of them are expressible in the model.

## 3. Trusted base

* Lean's kernel. All the theorems listed in `MANIFEST.json` depend at most on the axioms `propext`,
  `Classical.choice` and `Quot.sound`, according to `#print axioms` for each of them: all three, except for the following.
  * No axioms: `C119_fresh`, `C119_counterexample_removed`.
  * Only `propext`: `C04_position_foreign`, `C09_backends_lawful`, `C13_empty_selection`, `C44_counterexample`, `C50_new_block`, `C59_counterexample`, `C61_position_refused`, `C66_new_block`, `C97_counterexample`, `C105_counterexample`, `C107_const`, `C107_null`, `C108_destroy`, `C109_returns_partial`, `C109_counterexample_unwinding`, `C119_files`, `C119_after_failure`, `C119_counterexample`, `C119_failure`, `C119_counterexample_error`.
  * Only `propext` and `Quot.sound`: `C05_block_created_iff`, `C05_block_content`, `C05_block_shape_callback`, `C10_positions`, `C14_block_matching_iff`, `C44_data_origin_buffer_partial`, `C44_empty_buffer_debug`, `C67_cause_partial`, `C67_single_thread_partial`, `C67_failures_partial`, `C67_causes_exist`, `C67_threads_counterexample`, `C67_panic_counterexample`, `C67_interrupt_counterexample`, `C73_lossy`, `C92_new_block`, `C93_ends`, `C93_counterexample`, `C96_new`, `C96_wrapper`, `C96_assigned`, `C96_again`, `C96_blocks`, `C99_partial`, `C107_const_read`, `C107_scalar`, `C109_one_at_a_time_partial`, `C109_silent_partial`, `C109_counterexample`, `C109_counterexample_lost`, `C119_seen`, `C119_partial`, `C119_recovers`.

  There is no axiom, `sorry`, `native_decide` or `bv_decide` in the development. Concrete
  evaluations use `decide +kernel`.
* The reading of the code into the model: every definition in `lean/Verif/Model` cites the file and lines it
  models, and says where it simplifies.
* The definitions in `lean/Verif/Spec`, which give the meaning of the statements.
* Assumptions about code which is not part of the repository, each of them stated where it is used:
  * `Vec`, `HashMap`, `BTreeSet`, `IndexSet`, `Arc`, `RwLock`/`Mutex`, `Lazy` of `once_cell`, slices and iterators of Rust behave as
    documented;
  * `ndarray`: `reshape`, `swap_axes`, `index_axis`, `slice_axis_mut`, `assign` (with broadcasting) and
    `from_shape_vec` at the logical level (`Model/Data.lean`, `Model/Npy.lean`);
  * torch: elements are read, created, reshaped and assigned like in numpy, and autograd follows every operation (`Model/Torch.lean`, only for C78);
  * CMake: lists in variables, `string`, comparing versions, and the cache; `cargo build`: where it writes libraries and when it runs `build.rs` (only for
    C105, C106, C118 and C119, in `Spec/CMakeBuild.lean` and `Model/BuildScript.lean`);
  * numpy: `reshape`, `swapaxes`, `zeros`, indexing and assignment (`Model/Numpy.lean`, only for C50 and C72), when `reshape` makes a copy and which
    arrays are contiguous (`Model/NumpyView.lean`, only for C72), converting numbers when they are assigned
    (`Model/NumpyTypes.lean`, only for C73, where the conversion is a parameter);
  * `ndarray` 0.15: when reshaping keeps the memory and when it copies, and which strides count as standard
    layout (`Model/Strided.lean`, only for C51);
  * `rayon`: a parallel iterator over slices splits them at some positions, and each part is processed by
    one thread (`Model/Iter.lean`);
  * `py_literal`: the laws `Spec.LawfulPy`, for literals made of strings, integers, booleans, tuples, lists and
    dictionaries, only for the round-trip theorems (C32-C35, C37, C39). C38 and C40 need nothing;
  * `zip`: an archive keeps the entries written to it; for entries with the same name the last one is used;
  * `zip` 0.6 and `BufWriter`, only for C52-C54 (`Model/Files.lean`): an entry is in the archive as soon as `start_file`
    succeeded, with the bytes written to it; a `ZipWriter` which is dropped before `finish` writes the central
    directory for these entries; a file without the record at its end is not a ZIP file; the data does not contain bytes
    which look like such a record; names of entries are shorter than 65 536 bytes. A process which dies leaves the
    file as a disk which stops working at this point: writes reach the file in the order in which they were issued.
* Memory is not exhausted. Allocations of more than `isize::MAX` bytes panic, as in Rust.

## 4. Where the code does not have a property

In these cases the full statement is refuted by a theorem with a concrete execution, and the partial theorem
covers all the other cases. The model follows the code.

1. C17, C23, C26: `keys_to_samples` and `keys_to_properties` use the names in the order given by the user, but
   the values in the order of the keys (`src/tensor/utils.rs` lines 31-42). Moving `["l", "k"]` while
   the keys are `(k, l)` exchanges the two. `C17_order_counterexample`, `C23_order_counterexample`,
   `C26_order_counterexample`. The theorems without suffix say what is moved where for any order.
2. C10: `components_to_properties` moves an axis with a sequence of `swap_axes` which does not keep the order of
   the axes after it (`src/blocks.rs`). With two or more components after the moved one, the values of the
   remaining components are permuted. `C10_axes_counterexample`; the permutation is described by
   `C10_components_to_properties_rearranged`: the entries of these components are read in the order where the
   last component changes slowest, and written in the order where it changes fastest.
3. C11: a property with the name of the component makes `components_to_properties` panic after the component was
   removed; through the C API the panic is caught and the block is left without this component.
   `C11_clash_counterexample`, `C11_panic_corrupts`.
4. C08: `add_gradient` does not check that gradient samples refer to samples which exist.
   `C08_gradient_samples_not_checked`. `keys_to_samples` and `keys_to_properties` panic on such blocks.
5. C06: a parameter with a NUL character is inserted before `CString::new` panics.
   `C06_nul_in_parameter_corrupts_block`. From C the name can not contain a NUL.
6. C20, C27: gradient components of merged blocks are only compared with `debug_assert`. In release builds,
   merging blocks with different gradient components succeeds and labels the second one wrongly. A component with a
   single entry is even merged with one of any size, its values being repeated (`C20_broadcast`, `C27_broadcast`).
   `C20_release_counterexample`, `C27_release_counterexample`.
7. C31: registering the name "unregistered origin" gives the id 0. `C31_reserved_name_gets_zero`.
8. C40: `load` panics for file names such as `blocks/0/gradients/data.npy`, for repeated or malformed names of
   labels, repeated entries, labels without fields, arrays with less than 2 dimensions, and sizes which overflow.
   `C40_counterexample` and `Example.panicking`. In release builds sizes which wrap around are accepted.
9. C42: a NUL in the message of an error makes `CString::new(...).expect(...)` panic after the end of
   `catch_unwind`. `C42_counterexample`: loading a file with a NUL in the name of a variable.
10. C44: an empty buffer makes `buflen - 1` wrap around in release builds, and the name is written after the end.
    `C44_counterexample`.
11. C45: `copy_str_to_c` returns `EQS_INVALID_PARAMETER_ERROR` when the buffer is too small, and the loop in
    Python only continues for `EQS_BUFFER_SIZE_ERROR`. `C45_counterexample`, `C45_longer_names_raise`.

12. C50: as a consequence of 6, release builds call `move_samples_from` with arrays of different shapes. Numpy and
    `ndarray` broadcast the values silently, other implementations may fail. `C50_release_counterexample`. When a gradient
    has no samples, numpy compares the sizes and `ndarray` does not. `C50_empty_gradient_counterexample`.
13. C51: after `components_to_properties` for a component which is not the last one, in a block with a single property
    (or when this component has a single entry), the axes are swapped and merged without copying, so that
    the memory is not in row-major order. Then `data` fails, `eqs_get_rust_array` panics and the tensor map can not
    be saved. `C51_counterexample`, `C51_single_property`, `C51_not_saved`.

14. C52: if the disk fails to open the entry of a gradient when there is a single block, and then works again, `save` reports
    the error, but leaves a file which is loaded as a tensor map without this gradient. `C52_counterexample`.
15. C53: the result of flushing the `BufWriter` is ignored, `save` reports success although the end of the file was not
    written. `C53_counterexample`.
16. C54: `File::create` removes the content of an existing file before anything is written. `C54_counterexample`,
    `C54_overwritten`.

Other observations, which are part of the model and of the theorems but contradict no property:

* Labels without names: `count` and `iter` panic (`C01_labels_without_names`), exporting them to C panics
  although the code has a special case for it (`C04_no_names`).
* Moving all the key variables of a tensor map without blocks panics; `keys_to_properties` panics if a block has no
  properties, and both if a moved name is already a name of the samples or properties. The tensor map is unchanged
  (C21, C74 lists everything which makes them fail).
* `eqs_tensormap_blocks_matching` overwrites `*count` before it fails, and writes as many indexes as fit (C43).
* Gradient samples of merged blocks are always sorted, also without `sort_samples` (C20, C27); gradient samples of
  blocks which are not listed by the user are kept, with zeros (C27).
* A successful call does not clear the last error (C41).
* `eqs_block_data` drops the `eqs_array_t` which was in `*data` before (`eqsBlockData` has an argument for it).
17. C55: `TensorMap(keys, blocks)` with a block which was given to a tensor map before calls `eqs_tensormap` with a NULL
    pointer, which is not checked there. `C55_rules_needed .moved`.
18. C55: a block returned by `TensorMap.block` has a dangling pointer after `keys_to_properties` or `keys_to_samples`.
    `C55_rules_needed .stale`.
19. C55: the `ArrayWrapper` of a gradient added through `tensor.block(...)` is only referenced by this temporary object: once
    it is collected, the tensor map uses callbacks which do not exist any more. `C55_rules_needed .gradients`.
20. C55: `TensorMap._blocks` is the list of the user: clearing it lets the arrays be collected while the tensor map uses
    them. `C55_rules_needed .lists`.
21. C56: `TensorMap()` sets the pointers of the blocks to NULL before `eqs_tensormap` had a chance to refuse the keys or the
    blocks, which are never freed. `C56_counterexample`.
22. C57: `copy.deepcopy` of a block disables the garbage collector, and does not enable it again if the copy raises.
    `C57_counterexample`.
23. C59: `Labels(names, values)` keeps the last 32 bits of larger integers without an error. `C59_counterexample`. An empty name
    becomes `f0`, `f1`, ... (`fieldNames`).
24. C60: strides and offsets of views are ignored when labels are given to the library: `labels[::2]`, `labels[["b", "a"]]` and
    `labels[["b"]]` give other entries than the ones Python shows. `C60_counterexample`. `labels[::-1]` reads outside
    of the memory of the array. `C60_counterexample_memory`. Names end at the first NUL. `C60_counterexample_names`.
25. C61: `position`, `in` and `asarray` raise for labels without entries. `C61_no_entries`.
26. C61: `position` and `in` use the last 32 bits of integers: `2**32` is found where 0 is. `C61_wraps`.
27. C61: `as_namedtuples` raises for names which are keywords (`lambda`) or start with an underscore (`Labels.single()`).
    `C61_namedtuples`.
28. C62: `tensor.block(i, key=...)` and `tensor.block(labels, key=...)` ignore the keyword parameters.
    `C62_counterexample`.
29. C62: `tensor.block(2**64)` is the first block. `C62_counterexample_position`. `tensor.block(tensor.keys[i])` raises a `TypeError` if one of the names of the keys is `self` or `__return_selection`, which are names of parameters of `blocks_matching`: `C62_counterexample_key`. Named tuples of the user have no method `as_dict` and are not accepted: `C62_namedtuple`.
30. C64, C65: `_labels_from_npz` takes the bytes of labels as integers of this machine. Files from a machine with another byte order,
    saved with numpy or by the library, are loaded with use_numpy=True with other values in all labels, without an error. The
    library reads these files correctly. `C64_counterexample_byte_order`, `C65_counterexample_byte_order`.
31. C64: headers longer than 10000 bytes can be saved with numpy (and by the library), but are then refused by `np.load`.
    `C64_too_long`, `C64_counterexample_long`.
32. C65: arrays in Fortran order, or with another type than 64-bit floating point numbers, are saved with use_numpy=True and can then
    not be loaded by the library. `C65_counterexample_fortran`, `C65_refused`.
33. C66: `keys_to_samples` and `keys_to_properties` use `expect` on the new block: when a callback of the new array fails there, its status
    is lost and the caller gets an internal error (255). `C66_status_counterexample`.
34. C66: `components_to_properties` modifies labels before calling `swap_axes` and `reshape`: when one of these fails, labels and data of
    the tensor map do not match any more. `C66_corrupted_counterexample`.
35. C67: `LAST_EXCEPTION` is a global variable: with several threads, an error can have the exception of another thread as its cause.
    `C67_threads_counterexample`.
36. C67: `_check_status` does not clear `LAST_EXCEPTION` for positive statuses: together with defect 33, an exception is then given as
    the cause of a later, unrelated error. `C67_panic_counterexample`.
37. C67: `catch_exceptions` does not catch `KeyboardInterrupt`: the exception is printed by `ctypes`, and the library continues with a status
    which Python does not control. `C67_interrupt_counterexample`.
38. C68: `eqs_tensormap_components_to_properties` replaces labels of components and properties, so that pointers from `eqs_block_labels`
    are dangling; the documentation only mentions `eqs_tensormap_keys_to_xxx`. `C68_counterexample`.
39. C69: `block.samples` etc. keep the `TensorBlock` alive, but not its memory: after `TensorMap(keys, [block])` the memory belongs to
    the tensor map, and the labels are dangling when the tensor map is deleted, or when `TensorMap()` failed. `C69_dangling .given`,
    `C69_dangling .rejected`.
40. C69: `tensor.keys`, and the labels of a block in a tensor map, are dangling after `keys_to_properties` and `keys_to_samples`
    (`C69_dangling .keysMoved`, `.keysToProperties`, `.keysToSamples`); those of components and properties also after
    `components_to_properties` (`.components`).
41. C72: the same as 13. for numpy arrays: after `components_to_properties` for a component which is not the last one, in a block with
    a single property, the numpy array is not contiguous; `_eqs_array_data` raises an exception and the tensor map can not be saved.
    `C72_counterexample`, `C72_single_property`, `C72_not_saved`.
42. C73: when blocks contain numpy arrays with different number types, `keys_to_samples` and `keys_to_properties` create the merged
    array with the type of the first block, and assigning to it silently converts the numbers of the other blocks: numbers lose
    digits (or become integers) depending on the order of blocks. `C73_counterexample`, `C73_lossy`, `C73_first_block`.
43. C75: with keys `k, l`, moving `["l", "k"]` at once and moving `l` then `k` give different samples, because of the order defect of C17.
    `C75_counterexample`.
44. C76: `print(tensor)` puts no space between values which are wider than their column (`a = 100000001, b = 12345` and `a = 1000000011, b = 2345`
    are both shown as `10000000112345`). `C76_counterexample`.
45. C77: `block.values` of a block made by the library keeps the `TensorBlock` object alive, not the memory: after the block was given to
    `TensorMap()` and this tensor map is deleted, after `TensorMap()` raised an exception, and after keys or components were moved, the numpy
    array points to released memory, and reading or writing it is undefined behaviour. `C77_dangling`, `C77_counterexample`.
46. C78: `_eqs_array_data` raises "can not get data pointer for tensors not on CPU" if the tensor *is* on the CPU (`equistore/data.py` line 220);
    tensors on other devices fail in the next statement. Tensor maps with torch tensors can not be saved with the default
    `use_numpy=False`. `C78_native_save_fails`, `C78_counterexample`.
47. C79: with keys `k, l`, moving `["l", "k"]` to the properties at once and moving `k` then `l` give different properties, because of the
    order defect of C23. `C79_counterexample`.
48. C80: `save(path, ...)` adds `.npz` to paths without it and `load(path)` does not: it raises, or loads another, older file.
    `C80_counterexample`, `C80_not_loaded`.
49. C80: `save("a\0b.npz", ...)` with the library replaces the file `a`, because `ctypes` does not check for NUL in paths.
    `C80_counterexample_nul`, `C80_nul_library`.
50. C81: `keys_to_samples` refuses to merge blocks with different components, even without properties, when the
    same call succeeds after `components_to_properties`; then the component is lost, because there are no properties
    to remember it. `C81_counterexample`.
51. C82: with keys `(0, 1), (0, 2), (3, 1)`, moving the first name to the samples then the second one to the properties
    succeeds; the other order fails, since blocks to merge along samples then have different properties.
    `C82_counterexample`.
52. C83: `keys_to_samples("k\0")` moves `k`, and `keys_to_samples("")` moves a key named `f0`, the name numpy gives to a
    field without a name. `C83_counterexample`, `C83_counterexample_empty`. Calling `components_to_properties` with labels
    instead of names does nothing if these have no entries. `C83_labels_ignored`.
53. C84: `add_gradient("g\0x", ...)` adds a gradient `g`; then `has_gradient("g\0x")` is false. `C84_counterexample`. A block
    created with `samples[::2]` has other samples. `C84_counterexample_labels`.
54. C85: `TensorMap(keys[::2], blocks)` has the first keys, not every other one. `C85_counterexample`.
55. C87: `repr` of a block with one gradient `a', 'b` is the same as with two gradients `a` and `b`. `C87_counterexample`.
56. C88: `_cached_dll` is assigned before `setup_functions`: a second thread can get the library before its functions have
    types (`C88_counterexample`); with a library which lacks a function, the second use does not raise any more
    (`C88_counterexample_missing`).
57. C89: a path set by one thread while another one starts to use the library is replaced. `C89_counterexample`.
58. C90: `EQUISTORE_LIBRARY_PATH` is assigned before the file is checked: the second use skips the check and raises an `OSError`,
    or loads the file which was refused. `C90_counterexample`, `C90_counterexample_loads`.
59. C91: `_check_dll` raises `struct.error` or `UnicodeDecodeError` for some files which are not DLLs. `C91_counterexample`.
60. C92: `TensorMap::new` accepts blocks with arrays of different origins. `keys_to_samples` and `keys_to_properties` then give
    arrays of one implementation to the callbacks of another one, for example a Python object to the Rust library, when a
    block loaded from a file and a block created from numpy are merged. `C92_counterexample`.
61. C93: `data_origin` in Python ignores the status of the `origin` callback. `C93_counterexample`.
62. C94: `visit_Typedef` keeps `node.type.type`, so that `typedef T *eqs_x;` is declared as `T`, and `type_to_ctypes` reads only the first word of `typedef long long eqs_x;`. The current header has neither. `C94_counterexample`.
63. C95: `labels::Iter` defines `len` but not `size_hint`, so that `Zip::len`, used by `tensor.iter().len()` and `tensor.iter_mut().len()`, panics unless the iterator is finished. `C95_counterexample`.
64. C96: `ArrayWrapper` keeps its own copy of the shape of the array, which is not updated when a program assigns `block.values.shape = ...`. The library then uses the previous shape: the next operation fails, or succeeds with values which are not the ones of the array (`C96_wrong_values`). `C96_counterexample`.
65. C97: `LabelValue::from` panics for `i32::MAX` given as `u32`, `usize` or `isize`, and for `i32::MIN` given as `isize`, although both are valid label values. `C97_counterexample`.
66. C98: printing labels without names with `{:?}` panics, in `chunks_exact(0)`. `C98_counterexample`.
67. C99: `TensorBlockRefMut` is documented not to allow changes of the number of components, but `values_mut` and `gradient_mut` give a `&mut BasicBlock` with public fields. A safe Rust program can assign other samples, or another basic block with other components, so that labels and data of a tensor map do not fit any more; merging can then lose values without an error. `C99_counterexample`, `C99_later`.
68. C100: `eqs_block_gradients_list` gives a pointer into a vector which is moved when a gradient is added and the vector is full; the documentation does not say so. A C program keeping the list while adding gradients reads freed memory. The strings themselves are not moved. `C100_counterexample`, `C100_exact`.
69. C103: `std::slice::from_raw_parts` is called with the pointers of C callers also if the length is zero and the pointer is `NULL`, which is undefined behaviour (and aborts when the checks of the standard library are enabled). `eqs_labels_t` with `count == 0` and `values == NULL` passes the check made for it, and is what the library itself exports for labels without entries; `eqs_block` and `eqs_block_add_gradient` do this for blocks without components, `eqs_array_t::data` for arrays without elements. `C103_counterexample`, `C103_round_trip`, `C103_components`, `C103_undefined`.
70. C104: `Array` is a safe trait, but `eqs_array_t::data` makes a slice with the length computed from `shape()` at the pointer of `data()`. A type whose `data()` is shorter than its shape makes safe programs read outside of the memory (`C104_counterexample`). The same callbacks let a panic with a NUL in its message leave a function of C (`C104_counterexample_nul`). `as_array` trusts the origin: an array of somebody else which returns the origin of `ndarray` is used as a Rust box.
71. C105: `equistore-config.cmake` returns early if `equistore_FOUND` is set, but this variable belongs to a directory and the imported target is `GLOBAL`. If two directories of a project, none inside of the other, call `find_package(equistore)`, the second call is an error of `add_library` (`C105_counterexample`, `C105_directories_partial` says exactly when). For ranges of versions the upper end is ignored, and the lower end must be compatible with the installed version (`C105_counterexample_range`, `C105_range`).
72. C106: `get_version` compares the text printed by `git rev-list --count` with the number 0, which are never equal. A release built in a checkout with `git` gets the version `x.y.z.dev0`, which is before `x.y.z` (`C106_release`, `C106_counterexample`). If there are tags but none before the current commit, the version is also `.dev0`, whatever the number of commits (`C106_other_tags`). `CMakeLists.txt` uses the first text `version = "x.y.z"` anywhere in a line: with `rust-version = "1.56.0"` before the version, which Python ignores, the version for CMake is `rust-1.56.0` (`C106_cmake_anywhere`, `C106_counterexample_cmake`).
73. C107: `_ptr_to_ndarray` uses `reduce` without a first value, so that an array of the library without axes, which has one element, raises `TypeError` in Python (`C107_scalar`). Blocks have no such arrays.
74. C108: `rust_array_reshape`, `rust_array_create` and `rust_array_move_samples_from` do not check the pointers of their arrays, and make slices with `from_raw_parts`: `NULL` with a count of 0 is undefined behaviour (`C108_counterexample`). `rust_array_create` and `rust_array_copy` assign to `*array_storage`, which drops what was there: a program in C which declares a variable without initialising it calls `destroy` at a random address (`C108_counterexample_uninitialised`); the documentation of `copy` and `create` does not say that it has to be initialised. Moving samples from an array to itself has a mutable and a shared reference to the same array (`C108_same_array`).
75. C109: `eqs_disable_panic_printing` takes the panic hook away and sets another one in two steps. In between, the hook of Rust is installed, and panics in other threads are printed, even if printing was disabled before (`C109_counterexample`). If two threads call it at the same time (Python does so if both use equistore for the first time), one of them takes the hook of Rust instead of the one of the program, which is lost (`C109_counterexample_lost`). Rust does not allow to take the hook while the thread is panicking: called in a `destroy` callback during unwinding, the function panics itself, which ends the process (`C109_counterexample_unwinding`).
76. C111: `load` learns which gradients exist from the names of the entries for the data of gradients in block 0. If such an entry is missing (for example in a file which was unpacked and packed again), the tensor map is loaded without this gradient, in all blocks, and no error is reported although the other entries of this gradient are there (`C111_counterexample`, `C111_forgotten`).
77. C112: `labels[["b"]].asarray()` gives the values of all names of `labels`, since `view` uses the whole size of an element (`C112_counterexample`). Entries of labels are documented to be unique, but `labels[[0, 0]]` and selecting names can repeat entries (`C112_counterexample_repeated`).
78. C113: `Labels(names, values)` does not copy contiguous arrays of `int32`, and the new labels are writeable. Assigning to `values`, to one of its views or to the labels changes the entries (`C113_counterexample`), which can then be repeated (`C113_counterexample_repeated`). Labels in the library are never changed by a program (`C113_library`), as long as it does not set `flags.writeable`.
79. C114: without the feature `serialization`, `eqs_tensormap_save` calls `File::create` before it finds out that it can not save: an existing file becomes empty (`C114_counterexample`), and its previous content is lost (`C114_lost`). Loading changes nothing.
80. C118: CMake installs the file at a fixed place under `target`. With `CARGO_TARGET_DIR` or `CARGO_BUILD_TARGET` in the environment `cargo` writes somewhere else, and an older library is installed if there is one (`C118_counterexample`). The same happens with a target described by a file `x.json`, whose directory is called `x` (`C118_counterexample_json`). The version of `CARGO_EXE` is checked, but the command is `cargo build`, with the `cargo` of the `PATH` (`C118_counterexample_cargo`), so `CARGO` for `setup.py` has no effect on what is built. In a project added by `add_subdirectory` there is no default build type, and CMake stops with an error about the arguments of `string` (`C118_configures`).
81. C118: `setup.py` gives `RUST_BUILD_TARGET` to CMake only if it is set, so a later build in the same directory keeps the last target (`C118_counterexample_cache`). It ignores all errors of `os.mkdir`, which makes only the last directory of the path, so it fails if nothing else has made `build` before (`C118_python_refused`).
82. C119: `build.rs` only asks `cargo` to watch files which exist when it runs, and not the header. If `mod new;` is written and built (which fails) before `src/new.rs` exists, the header will not contain the functions of `new.rs`, although the library does (`C119_counterexample`). A header which was removed or changed is not made again (`C119_counterexample_removed`). Errors of `cbindgen` are ignored, so the library is built with an old header (`C119_counterexample_error`).

## 5. Modelled code

| file | modelled in | not modelled |
|------|-------------|--------------|
| `src/labels.rs` | `Model/Labels`, `Model/Iter`, `Model/Iterators`, `Model/LabelsPrint` (`Debug`) | `LabelsBuilder::reserve`, which has no effect one can see |
| `src/utils.rs` | `Model/NamesMemory` (all of it, with memory), `Model/Labels` (names) | in other modules `ConstCString` is a string |
| `src/blocks.rs` | `Model/Blocks`, `Model/Access`, `Model/NamesMemory` (memory of names) | `Clone` is in `Model/CHeap` |
| `src/data.rs` | `Model/Data` (`ndarray`, `EmptyArray`, origins), `Model/Strided` (`ndarray` with strides), `Model/CHeap` (handles, `destroy`, `copy`), `Model/Mixed` (several implementations), `Model/OriginThreads` (registry used by threads), `Model/RustCallbacks` (callbacks called from C), `Model/RustArrays` (callbacks in Rust and their memory), `Model/CSlices` (slices made from pointers) | `Debug`; the messages of panics inside `ndarray` |
| `src/lib.rs` | `Model/Res`, `Model/CStatus`, `Model/NoSerialization` (lines 34-46) | |
| `src/tensor/mod.rs`, `utils.rs` | `Model/Tensor` | |
| `src/tensor/keys_to_samples.rs` | `Model/KeysToSamples` | |
| `src/tensor/keys_to_properties.rs` | `Model/KeysToProperties` | |
| `src/tensor/iter.rs` | `Model/Iter`, `Model/Iterators` (one call at a time) | partial consumption by `rayon` consumers |
| `src/io/npy_header.rs` | `Model/NpyHeader`, `Model/PyLiteral`, `Model/PyFragment` | texts of error messages |
| `src/io/labels.rs`, `src/io/mod.rs` | `Model/Npy`, `Model/Archive`, `Model/Files` | compression, the bytes of ZIP files |
| `src/c_api/status.rs` | `Model/CStatus` | |
| `src/c_api/mod.rs` | `Model/PanicHook` | |
| `src/c_api/labels.rs` | `Model/CLabels`, `Model/CSlices` (pointers which can be `NULL`) | the counters of `Arc<Labels>`: labels are in memory as long as something has them (C68) |
| `src/c_api/utils.rs`, `data.rs` | `Model/CBuffers`, `Model/COrigins` and `Model/CRustArray` (all pointers), `Model/Strided` (`eqs_get_rust_array` with strides) | |
| `src/c_api/blocks.rs`, `tensor.rs` | `Model/CBlocks`, `Model/CBuffers`, `Model/CHeap`, `Model/CSlices` (pointers which can be `NULL`) | |
| `src/c_api/io.rs` | `Model/Files` (save, load), `Model/NoSerialization` (without the feature), `Model/CHeap` (arrays made by load) | |
| `equistore/utils.py`, `data.py` (origins), `status.py` | `Model/CBuffers`, `Model/PyStatus`, `Model/PyOrigins`, `Model/PyPointers` (arrays from pointers) | |
| `equistore/_c_lib.py`, `_c_api.py` (`setup_functions`) | `Model/PyLibrary`, `Model/DeclarationsOfEquistore` | files which change while the program runs |
| `scripts/generate-declarations.py`, `include/equistore.h` | `Model/Declarations`, `Model/DeclarationsOfEquistore` | `pycparser` and the C preprocessor; the text of the written module (terms instead); `#define` lines; that the header is the one of the Rust functions (it is generated by `cbindgen`) |
| `build.rs` | `Model/BuildScript` | what `cbindgen` writes |
| `cmake/*.cmake` | `Model/FindPackage` | where `find_package` searches, the properties of the imported target |
| `setup.py` (`get_version`, `cmake_ext`), `CMakeLists.txt` (version, choice of the command and of the installed library) | `Model/Version`, `Model/CMakeBuild` | the other commands of `setup.py`, headers and the properties of the imported target; `git` itself; what `cargo` does is stated in `Spec/CMakeBuild` |
| `equistore/labels.py` | `Model/PyLabels`, `Model/PyViews` (how long views are valid), `Model/PyPrint` (`_print_labels`), `Model/LabelsMemory` (shared memory and assignment) | other ways to make views (masks, reshapes), changing `flags.writeable`, arithmetic |
| `equistore/tensor.py` (creation, names, selection, iteration, moving) | `Model/PyTensor`, `Model/PySelection`, `Model/PyMove` | texts of exceptions |
| `equistore/io.py` | `Model/NumpyIo` (with `use_numpy=True`), `Model/PyFiles` (file names), `Model/PyLinks` (links and other names of the same file) | links which change while the program runs, disks which fail while numpy writes, compression, the bytes of ZIP files; numpy itself is described by `Spec/NumpyIo` |
| `equistore/data.py` (`ArrayWrapper`, numpy arrays) | `Model/Numpy`, `Model/NumpyView` (strides), `Model/NumpyTypes` (types), `Model/Torch`, `Model/PyObjects` (`_children`) | torch tensors of other types than `float64` or on several devices, types with numbers which are not `float64` numbers (`complex128`, `int64`, `longdouble`), memory shared by several views |
| `equistore/block.py`, `tensor.py` | `Model/PyBlock` (labels and gradients), `Model/PyObjects` (pointers, ownership, lifetimes), `Model/PyViews` (labels), `Model/PyArrays` (values), `Model/PyPrint`, `Model/PyPrintBlock` (printing) | numpy views of a part of an array, and arrays of the library which are given back to it; `Gradient` objects are their block and name; exact reference counts: objects are deleted when the program says so, and lists exist forever |

Simplifications of the heap model (C47-C49): addresses are never used again; arrays made inside of a call which fails
are not part of the heap; gradients are dropped in the order of the list instead of the order of the hash
map; callbacks only access the array they are called on.

## 6. Tests against wrong programs

`seeded/LOG.jsonl` records edits of the model, each of them as a realistic bug would change the program, with the
claim it breaks and the theorems which then failed. For each edit all the modules depending on it were rebuilt in
a copy, and a theorem counts as failed when it (or a lemma it uses) could not be proved any more. This does not show
that the theorem became false: an edit can also break the proof of a lemma about something the theorem does not say
(for example RA24, which changes nothing reachable from the programs of C104). What the log shows for sure is the
other direction, edits where nothing failed. `not_rebuilt` lists theorems of modules which were not built at all after the edit
(out of time or memory): nothing is known about these, and they do not count as failed. Entries of earlier versions of the log did
count them as failed, which was wrong. Some claims were corrected after a run: IT01 was expected to break C95, but the edited case can
not be reached; PL11 was expected to break C59, but reading is a part of C61. LB25 was expected to break C88, but it only changes
calls which overlap, which the theorems of C88 did not speak about before `C88_after_quiet_partial`. CK5 (the number of gradients
given to C) fails a theorem of C46 and not C07, which is about the Rust function; SR02 (reshape of strided arrays) fails C51 and
not C50, where a strided array is not one of the implementations. WX06 (labels taken by a list of positions keep the pointer to
the original ones) was expected to break C60. In the first run no theorem failed at all. The claim it breaks is about `position`, and
no theorem said it for labels made by indexing. `C61_position_right` and `C61_position_refused` were added for this. The entry has
the new claim and the result of the second run. The first versions of RC05, LF06 and MX01 did not type-check, so they tested nothing: their entries
were replaced by repaired edits (MX01 by a different one) and their results. LF06 led to new theorems about which array C70 returns. HD05
(the script does not run again after a failure) survived a first run, since `C119_after_failure` had a hypothesis about the state;
`C119_recovers` is about histories. LB15 and LB16 first failed only counterexamples; `C90_missing_partial` and C120 were added for
them. The entries have the results of the second runs.
