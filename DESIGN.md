# Design: a Lean 4 model of LUE (computationalgeography/lue)

## Layout

* `properties.jsonl` – the claims, in terms of the API.
* `lean/Verif/<Topic>/Model.lean` – transcription of the C++ code; each definition cites file and lines.
* `lean/Verif/<Topic>/Spec.lean` (or the head of `Properties.lean`) – the independent specification: what the
  operation means for a whole array, without partitions, tasks, halos, ...
* `lean/Verif/<Topic>/Lemmas.lean` – helper lemmas.
* `lean/Verif/<Topic>/Properties.lean` – the theorems named in `MANIFEST.json`, with a concrete
  non-trivial `example` (hypotheses satisfied / run of the model) beside each theorem.
* `seeded/LOG.jsonl` – mutation log: realistic bugs put in a scratch copy of the model, and what failed.

## Modelling conventions

* Indices and counts (`Index`, `Count`: 64 bit signed) are `Nat` or `Int`: wrap-around is not modelled. Places where
  a subtraction could go below zero are modelled in `Int`, or the theorem carries the precondition.
* Floating point values are exact numbers (a `LinearOrderedField`/`Rat`, or an arbitrary type with the operations):
  rounding, NaN and infinities are not modelled. No-data is `Option.none` unless the collision of a valid value with
  the no-data marker matters; then values are raw and `isNoData` is a predicate.
* C++ `throw` is `Except.error`/`none`. Undefined behaviour (reads outside an array) is a distinct outcome: reads are
  `Option`-valued (`none` = out of bounds) where bounds safety is part of the claim.
* HPX tasks: a program that attaches continuations to futures is modelled as a transition system; a schedule is an
  arbitrary list/relation of steps. Theorems quantify over all schedules.
* Arrays are functions `Nat → Nat → α` together with a shape, or lists; partitioned arrays are grids of partitions.

## Per property

| id | model | proof |
|----|-------|-------|
| C01 | `partition_shapes` per dimension and for lists of dimensions (any rank); exception outcomes | arithmetic on `/`, sums by induction; existence/uniqueness of the (partition, local index) pair |
| C02 | `linear_idx_to_idxs`, `idxs_to_linear_idx`, `linear_to_shape_index` over `List Nat` (any rank) | induction on the rank |
| C03 | the recursive `visit_array` with its cursor, any rank | induction on rank; membership + nodup + lexicographic sortedness |
| C04 | `map_to_range` in exact integer arithmetic, the throw | monotonicity, surjectivity, balance lemmas on floor division |
| C05 | the `hilbert_curve` recursion with its signed vectors | well-founded recursion; list of visited cells is a permutation of the rectangle |
| C06 | `InstantiateFromBuffer`: offset computation and row-wise copy | index arithmetic using C01/C02 |
| C07 | cell functions of unary/binary/ternary operations, partition loop, partitioned array loop | extensional equality with the whole-array spec through C01 |
| C08 | per-partition aggregate, combination of partition results, raw no-data values | fold lemmas; counterexample for collisions |
| C09 | per-partition sets, merge | membership |
| C10 | aggregator maps zone → partial statistic, merge, lookup | homomorphism lemma, instantiated for each statistic |
| C11 | transition system on (partition idxs, futures, start value) with `std::rotate` | invariant over arbitrary completion orders |
| C12 | the partition offset/extent computation | positive theorem for square partitions, counterexample otherwise |
| C13 | the index mapping of the downscale action | arithmetic; counterexamples if found |
| C14 | the halo/slice selection for each of the nine cases; the window read through the partition + halos | one-dimensional lemma (index in the padded array) applied to both dimensions |
| C15 | `box_kernel`, `circle_kernel` | arithmetic |
| C16 | the kernel loops as folds over the window | fold invariants |
| C17 | the D8 functor over a 3×3 window with its order of comparisons | case analysis; potential argument for acyclicity |
| C18 | the intra partition counting, corners, rows and columns | counting over the neighbourhood per cell |
| C19 | `Router/Model`: transition system; a state per partition (result data, inflow counts, output cells, pending input cells, channels); actions: solving the intra-partition streams of a partition, handling one message. `Accu/Model`: the cell functions of accu | invariant relating the states to a ghost record of what happened with each cell (`Router/Ghost`), termination measure, `accu` = sum over the catchment. Cycles: the exact condition for hanging is proved |
| C20 | same transition system with `Option` values (`none` = no-data) | recursion along the network |
| C21 | same transition system, cell functions of accu_threshold/fraction/capacity/trigger with state outflow × remainder | balance per cell; sum over the network |
| C22 | window functors of upstream, downstream | finite sums |
| C23 | flood fill as written (scan lines, explicit stack) | invariants: filled ⊆ component, frontier closed |
| C24 | merge of id sets | soundness; refutation of completeness by a concrete array |
| C25 | sorted partition lists, selection of the partition with the next maximum | permutation / sortedness by induction; counterexample for the sentinel |
| C26 | walk over route fragments | induction on the route |
| C27 | transition system of the serializer | invariants over arbitrary call orders |
| C28 | transition system of the sliding semaphore loop | invariants |
| C29 | hyperslab computation, file as a function from indices to values | C01 + last-write-wins argument over any write order |
| C30 | heap of buffers with handles | invariant; counterexample for aliasing |
| C31 | `default_partition_shape`, `max_partition_shape` (the roots are specified by their defining inequality) | arithmetic; counterexamples |
| C32 | Array object: shape + storage, its operations | invariant over histories |
| C33 | `reclassify` partition loop, lookup table built from `unique` | element-wise lemma of C07 + C09 |
| C34 | transition system of all `to_lue`/`from_lue` calls for a dataset: registration, open/read/write/close tasks per locality, serializer generations | invariants over all schedules; concrete runs as counterexamples |
| C35 | integral types as ranges of `Int`; functors store an arbitrary value on overflow; the range policies, incl. promotion and rounding of the limits | instantiation of C07 + arithmetic |
| C36 | HDF5 datasets as extents + elements; same-shape values; groups of values by name with a cached and a stored count | refinement of lists and maps by histories of operations |
| C37 | `chunk_shape` over the real numbers, any sorted order of the dimensions | induction over the dimensions; monotonicity of the size per dimension |
| C38 | cell equation over the reals (balance, derivative, guess; the Newton solver is a parameter), cell accumulator on top of the router of C19 | unique root by strict monotonicity and the intermediate value theorem; induction over the drainage relation; sums over catchments |
| C39 | gradients, slope, aspect as compositions of the modelled focal and local operations, over the reals with NaN | composition of C07 and C16 theorems; trigonometry |
| C40 | creation of partitioned arrays along the Hilbert curve, per locality and one by one; from_gdal, to_gdal, hyperslabs; GDAL by its documented block I/O | loops over the curve and requests (C04, C05); per partition block reads and writes; any order in which partitions become ready |
| C41 | range, mesh_grid, array_like, array_partition_id, locality_id, timestamp, partition_count_unique | loop invariants per partition, tasks in any order; exact values of `range` and of the offsets, hence the precise conditions under which these are right |
| C42 | `PyArray/*`: `__getitem__`/`__setitem__` of arrays, CPython's slices, `Hyperslab`, `Dataset::fill`, strings. Specification: per dimension the list of picked positions, their combinations in row-major order | Invariant of the loop over the indices (start, stride, count and shape so far), arithmetic progressions equal filtered ranges, induction on the rank |
| C43 | `Walk/*`: the protocol of components walking along routes, for any algorithm; `Integrate/*`: `integrate` as an instance, any addition. Specification: sum over the first cells of the route | Invariant: number of pieces handled per route; the data in the message of a route is that of the sequential walk; each cell holds the value written, if any. Termination by counting |
| C44 | `Allocate/*`: `integrate_and_allocate` as an instance of `Walk`, all steps of the allocation of a cell. Specification: per cell the fraction of grass, other crops zero | Case distinction on the demands being met at the start; invariant that this does not change during the walk |
| C45 | `Identifier/*`: instances of `hdf5::Identifier` and HDF5's table of reference counts, all operations. Specification: variables naming objects, no counting | Invariant: the count of an object equals the number of live instances naming it; induction over histories |
| C46 | `Validate/*`: all of `validate.cpp`, with issues accumulated and exceptions as in the code. Specification: consistency of a dataset in terms of objects and moments | Per function an equivalence "no errors iff"; composition; safety of indexing by the validity of the tracker |
| C47 | `Numpy/`: `copyN`/`replaceN` row loops on buffers, `fromNumpy` (via `Create.createEach`), `toNumpy` (offsets recorded in partitions, buffer with garbage), `createArray` (dtype switch). Proved with loop invariants over rows and partitions, for any array that `Holds` values (C40) |
| C48 | `PyOps/`: the tables of overloads of both classes (method, kind of argument, function called, order of the arguments), pybind11 dispatch, Python evaluation of binary operators (method, reflected method, fallback), expressions. Proved by case analysis of the tables and structural induction on expressions, on top of C07 |
| C49 | `RasterView/`: files as nested collections, soft links between properties, the object arrays of C36; views as C++ objects which copy geometry and names of layers. Specification: rasters with layers, one line per operation. Proved by a simulation relation which is preserved by each operation (a scan of the properties of a property set finds the layers, and only those), read-back by an invariant over the rest of the history. For files in general (`Foreign.lean`): a characterisation of rasters and layers, by cases |
| C50 | `GdalBlocks/`: bands as cells plus block shape and padding, reading of blocks, the loop over blocks with early exit, comparison of elements and metadata. Specification: same cells, same metadata. Proved by induction on the sequence of blocks; layouts for which the property does not hold are characterised by theorems of their own |
| C51 | `Translate/`: import and export of rasters on top of the models of GDAL blocks (C50) and raster views (C49). Import is shown to be a history of raster view operations, contents follow from the simulation of C49; export by calculation; the round trip by field arithmetic. Layouts for which cells get lost are characterised by theorems of their own |
| C52 | `PyIO/`: `parse_array_pathname`, `probe_raster`, `read_array`, `write_array` on a collection of datasets. An invariant (each dataset represents a collection of rasters, with arrays of the right shape) is kept by histories of C49 and by writing partitions; contents follow from C29 |
| C53 | `Pcraster/`: the wrappers, on top of the models of local operations (C07), operators (C48), creating arrays (C47), `unique_id` and `cell_index`. Objects are related to a value per cell (`Field`, `Stands`); each operation is proved to compute the value documented. `max` and `min` by induction on the arguments |
| C54 | `Calculate/`: the command as a compiler. The text of the statement is split and parsed; the visitors transform the syntax tree; the block of statements is run by an interpreter with local names and the two modules. Proved by induction on expressions that the translated expression has the value of the original one, that generated names are identifiers, unique, and different from other names, and that the block reads, assigns and writes as specified, for each order of the sets |
| C55 | `PcrFramework/`: callbacks of Python models as functions from the events of C28 to calls of methods of the model, runners, sample directories, names of files. The calls are related to the trace of each reachable state of C28; names are proved injective by inverting the functions on text |
| C56 | `TimeInput/`: lines, words, slices and indices as in Python, the cache as state, and the reclassification of C10. Proved for files described by an inductive grammar of lines and rows, and for each history of calls |
| C57 | `Config/`: a matcher for the regular expressions, with backtracking, the search loop, and the conversions. Backtracking is shown to be irrelevant, after which the loop is related to an inductive description of the accepted texts |
| C58 | `FloatOps/`: functors and policies per operation, for an arbitrary floating point format and rounding (`Lib`). `unary_spec` and `binary_spec` (C07) reduce the claims to cells; functions are compared with those of Mathlib, `round`, `trunc` and `modulus` with independent descriptions |
| C59 | `JsonImport/`: documents and datasets as nested maps and lists, one definition per function. `content` (what is stored at a path) and `listed` (what a document lists for a path) are related by one lemma about loops (`fold_content`), applied at each level |
| C60 | `Runtime/`: both threads as state machines with one step per access to something shared, mutexes, condition variables with lost notifications and spurious wakeups. Invariant: all shared state is a function of the places of both threads. `Effect` relates steps to calls, `State.work` bounds the number of steps |
| C61 | `Environment/`: text as list of characters, regular expression matching as functions, the loop by well-founded recursion (which shows that it ends) |
| C62 | `FieldApi/`: overload resolution as selection from lists of overloads, with template argument deduction and concepts, on top of the local operations (C07). `Means` gives the denotation of all expressions, induction. C handles: heap with cells, refinement of a map from handles to fields |
| C63 | `Scalability/`: constructors of the Python classes with their assertions, the loops over permutations, job steps, import and derived measurements. Induction over the loops, sorting by insertion; shapes with real numbers |
| C64 | `Random/`: distribution and engine as an abstract state machine with the promises and requirements of the standard library; fill per partition, per task, the Python type switch, field overloads and noise. Induction over the fill; instances for integer, real and normal distributions |
| C65 | `KernelPy/`: NumPy arrays as memory, offset, shape and strides; conversion to a kernel, overload table, and `expand`. Composition with the theorems about focal operations (C15, C16); equivalence for which strides weights are right; congruence of operations for kernels which agree on the window |
| C66 | `Shapefile/`: metadata as JSON values, selection, paths, GDAL datasets as layers with geometries, loop over time cells. Equivalence of the selection with a relation on metadata; invariant of the loop over time cells; composition with what validation (C46) establishes |
| C67 | `AccuInfo/`, `Router/Natural`, `Router/Outcomes`: the accumulator of classes, on top of the router of C19. The accumulator is paired with one that records what arrives in cells; projections of the pair are homomorphisms, so executions correspond (naturality of the router in the accumulator). Invariants of partitions about the class and the record; what the record contains follows from the theorem about the router |
| C68 | `PartitionIO/`: the bookkeeping of input and output cells of a partition, of any rank, with and without assertions. Refinement: the two maps are images of one list of waiting material; space is partitioned by increasing sequences of starts per dimension. Induction on the history of calls |
| C69 | `Structure/`: an HDF5 file as a finite map from paths to groups with attributes, arrays and soft links; creating functions as lists of HDF5 calls that stop at the first failure; opening functions as readers. Refinement: a file stores a nested description without paths or links (`Spec.lean`); each operation replaces one sub-tree; soft links resolve to the owner of a shared domain. Induction on the history |
| C70 | `Channels/`: a transition system of the process: communicator arrays with send channels and look-ups, AGAS as a table of names with requests handled in any order, channels as queues, a log of what tasks send and obtain. An invariant relates each channel to the task that created it and each look-up to the neighbour; names are shown to be injective in operation, partition and direction |
| C71 | `Dot/`: the statements and the text written for a dataset opened as in `Structure/`; the specification is a reader of the DOT language (tokens, statements, nested clusters) and a description of the items, parts and references of a dataset. Proved: scanning what is written gives the statements back, the statements are those of the items in the dataset, and names of nodes are unique |
| C72 | `Wire/`: archives are sequences of bytes, `serialize` functions are pairs of a function that writes and one that reads into an existing object. Partition data is read and written in the memory modelled for C30. Proved: reading what is written results in what was written and leaves the rest of the archive, member by member, for each of the classes |
| C73 | `Program/`: programs are trees of calls of the modelled operations, branches and loops; small-step execution, non-deterministic in the order of completion, contents of new memory, order of iteration over maps and the schedule of the router. Proved by a lock-step simulation between the execution with partitioned arrays and the execution with whole arrays, per operation using the theorems of C07, C08, C10, C14, C18, C19, C20 |
| C74 | `Dataflow/`: the calling thread is a tree of calls of operations and waits for results, of which the continuation depends on the result; an operation is a set of tasks with dependencies; small-step semantics in which either the thread continues or a task, whose dependencies are ready, is executed. Proved: an invariant relating ready results to an inductive definition of what tasks result in, progress, well-foundedness, confluence of the thread given these results. The sets of tasks of local, aggregate, zonal and focal operations give the same results as the models in C07, C08, C10, C14 |
| C75 | `Async/`: the thread executing a program of C73 is a script of C74: each call creates sets of tasks referring to the sets of tasks which compute its arguments, branches and loops wait for a scalar. Proved by induction on the steps of the program working with whole arrays: executing the new sets of tasks one after the other gives arrays which agree with the whole arrays (using the theorems per operation), hence these are the results of all asynchronous executions, by confluence |
| C76 | `Rounding/`: the models of sum, zonal_sum, zonal_mean and accu (C08, C10, C19) with floating point addition. Results of adding a list of numbers in some order are an inductive predicate, closed under adding results for two lists and reordering; its error is bounded by induction. Each operation is shown to result in such a value for exactly the numbers in the array, zone or catchment |
| C77 | `MassBalance/`: the four splitting operations as instances of the routing of `Accu/`, with rounded arithmetic. Induction over the catchment: the results of a cell are those of splitting a rounded sum of what arrives; the error of the balance is the sum of the errors of the upstream balances, of the sum and of the split |
| C78 | `FocalRounding/`: the functors of the focal operations as folds over the values in the window, for types whose addition is not associative; the values in the window are a permutation of the numbers in the cells of the array within reach; the limits of C76 apply. The result is a function of the window only, hence reproducible |
| C79 | `Life/`: the program, as a composition of the models of the operations it calls; the rules of the game for the infinite plane; the sum of 8 bit integers in the window is the number of living neighbours, a case distinction on this number and the state of the cell, induction on the number of generations |
| C80 | `NoData/`: the sentences of the reference documentation as predicates on the input and the result; derived from what the results are according to C13, C16, C17, C22, C64 and C78, with the halo being no-data; counterexamples for `focal_high_pass` and for sums which equal the no-data value |
| C81 | `Cutout/`: two executions of a program are compared in an area which shrinks with the radius of each focal operation (simulation between whole arrays of different shapes); C73 relates both to partitioned executions |
| C82 | `Cutout/Catchment`: streams in a cutout are streams in the array, by induction along the streams the catchments are the same; C19 to C21 determine the results in terms of the catchment |
| C83 | `Cutout/Zones`: the cells of the zone in the array and in the part of it are a permutation of each other; C10 determines the results in terms of the values in the zone |

## Trusted base

* Lean 4.33.0's kernel. The theorems in `MANIFEST.json` depend on no axioms other than `propext`, `Quot.sound` and
  `Classical.choice` (`#print axioms`; `vcheck` lists them per theorem). No axioms are added, and no proof uses compiled code.
* That the definitions in the model say what the cited lines of C++ do. The model was transcribed by hand; every definition
  cites the lines it models and says what it leaves out.
* That the libraries LUE builds upon do what their documentation says, where the model relies on that:
  * HPX: futures become ready at most once, continuations run after the futures they depend on, actions are executed exactly
    once, in any order, channels deliver values in order, mutexes exclude, `sliding_semaphore` (C28), promises throw when set twice.
  * HDF5: extents, hyperslab selections, links and attributes (C29, C36); opening and closing of files (C34).
  * the C++ standard library: `std::sort` is some function that sorts, `std::rotate`, `std::lower_bound`, iteration over an
    unordered map takes any order, `std::shared_ptr` counts its owners.
  * boost: `safe_numerics` (C35), `newton_raphson_iterate` (C38, as a parameter).

### Modelled

| area | files (below `source/`) | claims | left out |
|------|-------------------------|--------|----------|
| indices, visiting, decomposition | `framework/core`: `array_visitor.hpp`, `linear_idx*`, `domain_decomposition.hpp`, `math.hpp`, `hilbert_curve.hpp`; `framework/partitioned_array` | C01–C05, C31 | 64-bit wrap-around |
| memory of partitions | `framework/core/array.hpp`, `partitioned_array/shared_buffer.hpp`, `array_partition_data.hpp` | C30, C32 | serialisation, use by several threads |
| from buffer | `framework/algorithm/create_partitioned_array.hpp` | C06 | release of the buffer |
| local operations | `definition/{unary,binary,ternary}_local_operation.hpp`, `where.hpp`, policies | C07, C35 | floating point rounding; AGAS, localities |
| aggregate, zonal operations, reclassify, unique, unique_id, cell_index, downscale | `definition/*.hpp` | C08–C13, C33 | rounding of sums; random numbers |
| focal operations | `definition/focal_operation.hpp`, `kernel.hpp`, `focal_*.hpp`, `convolve.hpp`, `gradients/slope/aspect.hpp` | C14–C17, C39 | rounding |
| flow direction networks | `definition/{d8_flow_direction,inflow_count,accumulating_router,accu*,kinematic_wave,upstream,downstream*}.hpp` | C17–C22, C38 | `accu_info`, `partial_accu`; rounding |
| clump | `definition/clump.hpp` | C23, C24 | overflow of the ids |
| routes | `definition/{decreasing_order,first_n}.hpp`, `walk.hpp`, `framework/partitioned_route` | C25, C26 | creation of components |
| running models | `framework/model/simulate.hpp` | C28 | user code that throws |
| I/O of arrays | `framework/io/{to_lue,from_lue,util,serializer}.hpp`, `lue.cpp` | C27, C29, C34 | parallel I/O protocol (only its element-wise effect, C29) |
| rasters | `framework/io/source/gdal.cpp.in`, `data_model/gdal/source/raster_band.cpp`, `framework/core/hyperslab.hpp` | C40 | conversion of element types, metadata other than the geo-transform |
| creation and position | `create_partitioned_array.hpp`, `range.hpp`, `mesh_grid.hpp`, `array_like.hpp`, `array_partition_id.hpp`, `locality_id.hpp`, `timestamp.hpp`, `partition_operation.hpp`, `partition_count_unique.hpp` | C40, C41 | overload creating routes |
| Python data model | `data_model/python/source/core/array.cpp`, `data_model/hdf5/source/{dataset,hyperslab,vlen_memory}.cpp` | C42 | conversion of element types, what HDF5 does with strides of 2^63 and more, releasing memory on errors |
| Image land | `image_land/.../definition/{integrate,integrate_and_allocate}.hpp`, `algorithm/routing/walk/*.hpp`, `walk.hpp` | C43, C44 | rounding (C44), differing shapes of inputs, failing creation of components |
| data model | `data_model/cxx/source/array/**/value.cpp`, `data_model/hdf5/source/{dataset,hyperslab,chunk}.cpp` | C36, C37 | conversions between types |
| Cutout | `Cutout/`: the radius of the operations of `Program/` (C73) | zonal operations, routing and aggregations (their results depend on all cells) |
| NoData | `NoData/`: `document/doc/reference/operation/*.md`, using the models of C13, C14, C16, C17, C22, C64 and C78 | `uniform.md` (its no-data handling is a TODO) |
| Life | `Life/`: `document/doc/quick_start/game_of_life.py` | parsing the command line |
| FocalRounding | `FocalRounding/`: rounding in focal_sum, focal_mean, focal_high_pass and convolve | slope and aspect (C39 has exact arithmetic); contraction of operations by compilers |
| MassBalance | `MassBalance/`: rounded amounts in accu_threshold, accu_fraction, accu_capacity and accu_trigger | the kinematic wave and accu_info; the difference between schedules at the threshold or trigger itself |
| Rounding | `Rounding/`: floating point sums in arrays, zones and catchments | the effect of compiler options which allow additions to be reordered within a task |
| Asynchronous scripts | `Async/`: variables holding futures, calls of all operations of C73, waiting for scalars | as C73 and C74; `accu` and operations like it start once all partitions of their arguments are ready (their tasks are modelled in C19 and C67) |
| Asynchronous execution | `Dataflow/`: calls of operations, waiting for results, tasks and what they depend on, exceptions in tasks | the implementation of futures and the scheduler (HPX), localities which fail, routing operations, cancellation |
| Programs | `Program/`: scripts and models calling local, focal, zonal, routing and aggregate operations | overlap in time of tasks of subsequent operations, arrays with different shapes in a single program, operations depending on the partitioning by design |
| Serialization | all `serialize` functions of classes passed to and returned by tasks (`Wire/`): `array_partition_data.hpp`, `serialize/*.hpp`, `policy/*.hpp`, `close_to.hpp`, `definition/{downstream_distance,partial_accu,zonal_*,accumulating_router,clump,integrate,integrate_and_allocate}.hpp`, `detail/{communicator,array_partition_io}.hpp`, `routing/walk/*.hpp` | HPX archives (byte order, zero-copy chunks, credits of ids), polymorphic types, error handling |
| Export to DOT | `translate/source/format/dot.cpp` (`Dot/`) | opening the output file, more than one dataset per graph, HDF5 addresses (assumed to be unique per object) |
| Communicators | `algorithm/detail/communicator.hpp`, `communicator_array.hpp`, `create_communicators`, `keep_communicators_alive` (`Channels/`) | HPX (AGAS, channels: contract), localities, reference counts, wrap-around of the counter after 2^64 invocations |
| Structure of a dataset | `data_model/cxx/source/object/*`, `info/property/*`, `core/{clock,aspect,collection,tag}`, `data_model/hdf5/source/{group,soft_link,link,attributes}.cpp` (`Structure/`) | values in arrays (C36), object caches that differ from the file, concurrency, names with a slash |
| Input and output cells | `detail/array_partition_io.hpp` (`PartitionIO/`) | order of keys, serialization, `detail/saved_array_partition_io.hpp` |
| Classes of cells | `definition/accu_info.hpp` (`AccuInfo/`) | cells on or downstream of cycles |
| Export to Shapefiles | `gdal_vector.cpp` (`Shapefile/`) | conversion of coordinates to 64-bit floats, spatial reference, files written by GDAL |
| NumPy arrays passed by reference | Python bindings of focal operations with a kernel, and `expand` of object arrays of different shapes (`KernelPy/`) | other bindings use `c_style` arrays, which pybind11 copies if needed (C42, C47) |
| random values | `uniform`, `normal`, `open_simplex_noise`, their Python bindings, and `uniform` of fields (`Random/`) | the standard library engines and distributions and FastNoiseLite (parameters), statistical properties of draws |
| scalability tool | `quality_assurance/scalability/command/scalability/experiment`: pool, worker, benchmark, cluster, shape, and script generation and import of strong and weak scalability experiments (`Scalability/`) | partition shape experiments, text of scripts, memory requirements, performance counters, means and standard deviations, plots |
| field API | `framework/api/cxx` (local operations, operators), `framework/api/c` (local operations, destruction), `framework/api/python/source/scalar.cpp` (`FieldApi/`) | I/O, `create_array`, `uniform`, `open_simplex_noise`, `accu`, `focal_mean`; overload resolution is done by the compiler and modelled by its rules |
| environment variables | `utility/source/environment.cpp` (`Environment/`) | -- |
| HPX runtime | `framework/core/source/runtime.cpp`, `framework/python/source/hpx_runtime.cpp`, `start_hpx_runtime`, `stop_hpx_runtime`, `runtime_scope` (`Runtime/`) | HPX itself, its configuration, failure to start |
| import of JSON | `translate/source/format/json.cpp:56-1169` and the parts of `array/*/value.cpp` it uses (`JsonImport/`) | parsing, missing entries, descriptions of epochs, space discretization, reading rasters, conversions between datatypes |
| operations on floating point elements | `framework/algorithm/{sqrt,log,log10,acos,asin,atan,sin,cos,tan,exp,pow,abs,negate,floor,ceil,round,trunc,add,subtract,multiply,divide,modulus,equal_to,…,logical_*,close_to}.hpp`, their value policies and `out_of_range.hpp` (`FloatOps/`) | signed zeros, `atan2`, accuracy of the mathematical library (a parameter), infinite arguments of arithmetic operations |
| configuration entries | `framework/core/source/configuration_entry.cpp:14-203` (`Config/`) | `boost::lexical_cast` and `hpx::get_config_entry` (described in the model), locales |
| timeinputscalar | `framework/python/pcraster/__init__.py:1168-1188` (`TimeInput/`) | conversion of text to numbers (parameter) |
| Python models | `framework/python/framework/support.py:8-250`, `framework/python/pcraster/framework/__init__.py:60-390` (`PcrFramework/`) | Windows paths, reading and writing the arrays themselves (C52), the command line |
| command lue_calculate | `framework/python/script/lue_calculate.py:22-280` (`Calculate/`) | parsing and evaluating Python expressions (parameters), parsing the command line, Windows paths, non-ASCII identifiers |
| PCRaster-compatible operations | `framework/python/pcraster/__init__.py:54-116, 148-168, 250-417, 608-689, 739-773, 824-834, 931-993, 1022-1032, 1067-1098, 1249-1257, 1323-1356`, `framework/python/source/algorithm/local_operation/where.cpp`, `valid.cpp`, `cast.cpp` (`Pcraster/`) | names of files as arguments, wrappers which only pass on their arguments, time series, random numbers, floating point rounding |
| Arrays by pathname | `framework/python/source/io/read_array.cpp`, `write_array.cpp`, `data_model/hl/source/util.cpp:42-96`, `raster_view.cpp:361-373, 694-706`, `hdf5/source/hyperslab.cpp:133-190` (`PyIO/`) | conversion of elements, `normalize`, futures and asynchronous errors, other users of the files |
| Translating rasters | `translate/source/format/gdal.cpp:11-33, 281-318, 372-552, 862-906, 985-1078` (`Translate/`) | metadata files, element types, no-data values of exported rasters, coordinates in floating point, stacks (not supported by the code) |
| Comparing rasters | `compare_rasters.cpp`, `blocks.cpp`, `raster_band.cpp:15-54` (`GdalBlocks/`) | the texts of differences, conversion of element types by GDAL, complex elements |
| Raster views | `raster_view.cpp`, `property_group.cpp:68-106`, `collection.hpp` (`RasterView/`) | element datatypes, clocks, several C++ dataset objects on one file, names with slashes, the active set tracker and object-ID bookkeeping except for what is created |
| Python: operators | `partitioned_array.hpp`, `scalar.hpp` (`PyOps/`) | numbers and their conversion by pybind11 (parameter); subclassing in Python |
| Python: NumPy | `from_numpy.cpp`, `to_numpy.cpp`, `create_partitioned_array.cpp` (`Numpy/`) | strides of NumPy arrays; arrays of rank 1; fill values which are not ready yet |
| HDF5 handles | `data_model/hdf5/source/identifier.cpp` | C45 | use by several threads |
| validation | `data_model/cxx/source/validate.cpp` | C46 | reading the values from the file |

The table is about the files as a whole; the comment of each definition tells which lines it models.

### Not modelled

HPX itself, AGAS and components' life time, HDF5, GDAL, MPI; memory exhaustion; integer overflow (except for C35, where it
is the subject); rounding of floating point numbers (values are exact numbers: elements of an ordered field, or real numbers
in C37–C39); random number generators and noise; the C and Python bindings; the viewer, the utilities and the
translation of file formats.

## Findings

Deviations from what is documented or intended, found while proving. Most of these are theorems or examples in the model, the others are observations from reading the code.

| claim | finding |
|-------|---------|
| C07 | `where` with a scalar uses swapped no-data policies; arrays with different partitionings pass the compatibility check if the number of partitions is the same |
| C08 | a partial aggregate equal to the no-data value drops the whole partition |
| C12 | `cell_index` uses the partition extent of the other dimension: wrong for partitions which are not square |
| C13 | downscale copies from the wrong cells, if the number of surplus cells in the last partition is too large |
| C16 | `focal_mean`, `focal_high_pass` do not propagate no-data in the focal cell, as documented |
| C17 | the halo of `d8_flow_direction` is filled with `numeric_limits::min()`, which is positive for floating point types |
| C18 | `inflow_count` is wrong, or reads outside memory, for partitions of a single row or column |
| C19 | the router never finishes if a stream crossing a partition border is on or downstream of a cycle |
| C22 | `downstream` treats codes which are not a direction as sinks |
| C24 | merging of clumps is not transitive: an E-shaped zone over several partitions gets two ids; the code for borders uses the no-data policy of the input for clump ids |
| C25 | the sentinel for exhausted partitions is `numeric_limits::min()`; `route_partition()` can be overtaken by recording, and throws; the overload without zones reads the first element of an empty collection; an assertion compares a number with itself (`decreasing_order.hpp:287`) |
| C26 | a walk which is faster than the request for the result satisfies the promise twice |
| C27 | a generation which is never requested blocks later ones; requesting one twice gives a useless promise |
| C28 | during the first time step one more time step than allowed can be in flight |
| C29 | the capacity assertion in `partition_idxs_by_locality` fails for uneven distributions (debug builds) |
| C30 | move-assignment to a handle clears elements shared with other handles, which keep dangling spans |
| C31 | default partition shapes can have a zero extent, or not fit in the array |
| C32 | `reshape` to an empty shape keeps the buffer; copy-assignment after `remove` keeps too few elements; the `begin()` in the constructor taking iterators is the member function |
| C34 | with thread-safe HDF5 a dataset can be opened for writing while an earlier read still has it open (the BUG comment in `to_lue.hpp:456`); localities without partitions hang; a debug assertion fails (`from_lue.hpp:418`) |
| C35 | `INT_MIN / -1` passes the range policy if the no-data value is not the lowest value; the upper limit of float to integer conversions is rounded up |
| C36 | expanding with a flat array of extents only works for rank 2; two handles for the same array lose counts; a failed expand blocks the next one |
| C37 | undefined behaviour for arrays without elements and for high ranks; chunks larger and smaller than the limits |
| C38 | negative lateral inflow (documented as extraction) results in no-data with the value policies; the domains of alpha, beta and time step are not checked |
| C39 | missing elevations count as zero: slopes at borders depend on the elevation; `aspect` swaps the components of the gradient, and points up instead of down |
| C40 | `to_gdal` with a clone of another shape throws after the existing raster has been replaced; extents of 2^31 or more wrap around silently |
| C41 | `range`: if the number of columns is not a multiple of the partition's (and there are several rows and columns of partitions), different cells get the same number; `partition_count_unique` records wrong offsets in enlarged last partitions, or asserts |
| C42 | `array[::2] = x` throws (`Hyperslab::nr_elements` multiplies by the stride); `array[i] = values` with too few values reads past the end; negative steps ask HDF5 for strides of 2^64 minus the step; reading strings returns empty strings for elements which are not a multiple of four (pointer to UCS4 code points incremented by numbers of bytes); assigning Unicode strings stores the first one everywhere; a slice of strings writes the whole array, or frees the whole array, past the end of the buffer
| C43 | As in C26: a component asked for its result after it has finished satisfies its promise a second time (`integrate_overtaken`) |
| C44 | `integrate_and_allocate`: `keep_walking` is true only if all demands are met, so nothing is allocated when there is demand left (`allocate_nothing`); demands and productions are compared as vectors, not per crop; the zonal productions returned are never updated (`allocate_productions`); grass of the previous cell is counted in the next one; a cell with no-data ends the visit of the rest of the fragment (`allocate_grass`) |
| C46 | validation reads outside a vector if there are fewer object indices than active objects (`validate_out_of_bounds`); active objects stored before the first set are accepted (`objects_outside_sets_accepted`), as are object arrays shared between moments (`shared_object_array_accepted`); `values_can_be_tested` is never true, so counts which discretize time are not validated (`time_grid_values_not_validated`); the second test of collection property sets (`validate.cpp:1716-1732`) repeats the first instead of testing object indices; `Clock::operator<` (`clock.cpp:54`) is not a strict weak order |
| C47 | values equal to LUE's own no-data value (e.g. 255 for unsigned bytes) silently become no-data, whether or not a no-data value is passed to `from_numpy`; `to_numpy` trusts the offsets recorded in the partitions: with the wrong offsets of C41 (`partition_count_unique`) cells of the NumPy array are overwritten and others left uninitialised |
| C48 | `Scalar.__rmod__` (scalar.hpp:219-223) calls `modulus(self, argument)` instead of `modulus(argument, self)`; integral arrays and scalars have no `*`, `//` and `**`; scalars lack `__ror__`, `__rxor__` and `__rand__`; `==` of arrays with different element types silently gives `False` |
| C49 | `variable::create_raster_view` writes object ID 5 in the active set although the phenomenon may contain another object (C46 validation rejects such datasets); a raster of a phenomenon with several objects can be created and used but `contains_raster` is false; a layer called `time_grid_shape` turns `constant::contains_raster` false; opening a variable view on a constant raster dereferences an empty optional; the order of `layer_names()` differs between the view that added layers and a reopened one; views do not see layers added by other views; `variable::contains_raster` tests `time_is_discretized` twice instead of also space; a failing create may still add a phenomenon or object |
| C50 | `compare_values` passes `{block_x, block_y}` to `shape_in_valid_cells`, which expects `{y, x}`: in a raster of two strips the second strip is never compared, in a raster of three or more strips a negative number of elements is compared (undefined behaviour); valid cells of edge blocks are not contiguous: cells at the right are skipped and padding is compared; block shapes of the second raster are not checked: buffer overflow; rasters with NaNs that do not mark no-data differ from themselves |
| C51 | `blocks` in `gdal.cpp` multiplies the block shape by 10, but `read_block` / `write_block` handle one native block: of rasters stored in at most 10 strips all rows but those of the first strip silently become zero on import and are not written on export; tiled rasters are scrambled; rasters of more than 10 strips cannot be imported, since also the order of the dimensions differs between `blocks` and its callers; a block larger than the raster overflows the buffer; only the first band is exported; importing in an existing raster does not check the shape of the grid |
| C52 | `read_array` treats a hyperslab with a zero extent as absent: an empty subset reads the whole raster; the default partition shape of a subset is computed from the whole raster, with one worker thread no proper subset can be read without passing one in; `write_array` of a smaller array silently overwrites the first rows and columns, of a larger one writes the partitions that fit before it throws |
| C53 | `catchmenttotal` returns the remainder of `accu_threshold` with a threshold of 0, instead of the outflow: all cells contain 0 (or no-data); `ifthenelse(condition, float_array, 1)` raises a `TypeError`, because the number is first converted to a scalar of its own type; `max(float_array, 0, 1)` fails with an assertion, because the last two arguments are combined first, and become integers; `xcoordinate` and `ycoordinate` inherit the wrong indices of `cell_index` for partitions which are not square |
| C54 | The clone is "the first pathname found in the expression" according to the comment, but the names are put in a set: it is an arbitrary one, which differs between runs (`clone_not_first`); `a = "a" + 1` creates raster `a.tif` while it is being read asynchronously; names of outputs which are quoted are refused, and names starting with a digit, or containing a space or operator other than a hyphen, result in code which is not valid; functions of `lue.framework` which are given as attribute are refused |
| C55 | `post_monte_carlo` calls `premcloop`: it is called after each sample again, and `postmcloop` never (`postmcloop_never`); `MonteCarloModelRunner` refers to an attribute a `StaticModelRunner` does not have (`monteCarlo_static`); the current time step is not reset between samples; absolute names result in all samples writing to the same file (`generateNameST_absolute`) |
| C56 | For time step 0 (a static model) the values of the last row are returned (`timestep_zero`); if the name of a column is blank, rows are shifted silently (`unnamed_column`); the column with times is ignored (`row_by_position`); a file which is changed is not read again (`timeinput_history`) |
| C57 | `std::regex_search` is not anchored: `[-5]` is read as 5 (`sign_lost`), `[10 20, 30]` as 20, 30 and `[1.5]` as 5 (`values_dropped`) instead of being refused; `-1` is accepted for unsigned entries (`toUnsigned_negative`) |
| C58 | `log(0)` and `log10(0)` give minus infinity instead of no-data (`log_zero`; the domain is tested with `>=`); `pow` has no domain and range policies, `pow(0, -1)` and overflow give infinity (`pow_zero_negative`, `pow_overflow`); `close_to` is not symmetric (`closeTo_asymmetric`) |
| C59 | `active_object_index` is written at the start when appending (`objectIndex_overwritten`); the box of a raster with rows ordered from north to south is located north of it (`box_not_south`); properties with different, constant shapes and another datatype than uint8 are skipped silently (`datatype_ignored`), and inline values of these are replaced by those of the previous object (`inline_ignored`); the shape of an existing property is not compared with the one listed, values are lost (`values_lost`) or read outside of the buffer; adding a time domain to a property set without one is undefined (`no_clock_undefined`) |
| C60 | waiting for the destructor is not done in a loop: a spurious wakeup finalizes the runtime while it is used (`spurious_finalizes`); `start_hpx_runtime` releases the GIL and does not lock: two threads can both start the runtime (`concurrent_start`) |
| C61 | the index is advanced by the size of the value inserted, and not to the end of it: values are searched for references depending on their position (`value_searched`), and removed references can join characters to new ones (`joined_searched`) |
| C62 | Python: `create_scalar` converts via `double`: 64 bit integers above 2^53 are rounded without notice (`createScalar_rounds`), and numbers that don't fit are not detected, the conversion is undefined (`createScalar_undefined`) |
| C63 | scalability tool: experiments without a run with a single worker can be run and imported, but deriving speed-up and efficiency fails (`no_single_worker`); `range_of_shapes` documents that the first shape equals `min_shape`, which is not true for shapes of which the extents differ: (10, 20) becomes (7, 14) (`first_shape_other`) |
| C64 | `uniform` with min > max, and `normal` with stddev <= 0 when creating a scalar or given a shape: undefined behaviour, not verified (`uniformArray_undefined`, `normal_not_verified`); given a shape, no-data arguments are not recognized (`uniform_noData`, `uniform_nan`); `open_simplex_noise` of arrays that are partitioned differently mixes cells or reads outside of partitions (`noise_mixes`, `noise_outOfBounds`) |
| C65 | `array_to_kernel` ignores strides: views of NumPy arrays give other weights or read outside of the array (`kernel_iff`, `transposed_kernel`, `flipped_kernel`); the same for `ids` and `shapes` passed to `expand` (`expand_everyOther`); kernels with an even extent or without elements are not refused in release builds (`even_kernel`, `empty_kernel`) |
| C66 | the directory in the output name is ignored for points (`directory_ignored`); undefined behaviour without moments or time domain (`no_moments`, `no_time_domain`); rank of boxes not verified (`boxes_overflow`); sets not starting at the first object give extra points in the first layer (`first_layer_extra`) |
| C67 | the class of an input cell in which also a stream arrives that entered the partition elsewhere depends on the schedule (examples in `AccuInfo/Classes.lean`); class confluence never occurs (`Allowed.class`) |
| C68 | without assertions, adding an output cell that is already waiting silently loses the second value (precondition in the documentation) |
| C69 | adding a property-set with an epoch whose origin is the empty string, or sharing a time domain through more than 16 property-sets, throws half way and leaves a dataset that cannot be opened anymore (`unstorable_breaks_dataset`); `Clock::operator==` ignores the epoch; setting a discretization twice throws after having overwritten the attribute |
| C70 | `invocation_id++` in `communicator_array.hpp` is not atomic: when two threads start routing operations at the same time, they can obtain the same number, and then the second operation listens to the channels of the first one (example in `Channels/Examples.lean`). `hpx::when_all(begin, end, callable)` in `keep_communicators_alive` and `inflow_count` passes a callable as third argument; whether HPX calls it could not be checked here, and if not then names are never unregistered; the theorems hold in either case |
| C71 | `dot.cpp` does not escape names in HTML-like labels: a name with `<`, `>` or `&` results in text that is not valid DOT, or in other attributes (examples in `Dot/Examples.lean`). Names of nodes are addresses in the file, so that nodes of different datasets in one graph can coincide (not reachable from the command) |
| C72 | `Policies::serialize` does not archive the domain policy: a domain policy with a state, provided by a user, is replaced by a default-constructed one in other processes (`Wire/Examples.lean`) |
