import json
P=[]
F='source/framework/'
A=F+'algorithm/include/lue/framework/algorithm/'
K=F+'core/include/lue/framework/core/'
I=F+'image_land/include/lue/framework/algorithm/definition/'
def p(title, statement, quant, why, anchors):
    P.append(dict(id='C%02d'%(len(P)+1), title=title, statement=statement, quantifier=quant, why_tests_cant=why, anchors=anchors))

p('Partitions tile the array exactly',
  'For every non-empty array shape and every partition shape that is non-empty and fits in the array, the partitions created for a partitioned array form a grid of floor(array/partition) partitions per dimension, every array cell lies in exactly one partition, every partition extent lies in [p, 2p) where p is the requested extent, and the extents sum to the array extent. Any other request throws and creates nothing.',
  'all array shapes and partition shapes, of any extent (per dimension, and in 2D)',
  'Tests use a few shapes; the tiling must hold for every pair of shapes, in particular for every remainder of the division.',
  [K+'domain_decomposition.hpp: partition_shapes, is_subset_of, reshape_shapes', A+'create_partitioned_array.hpp: create_partitioned_array'])
p('Linear index and cell indices are inverse',
  'Converting a linear index to per-dimension indices and back (and the other way around) is the identity for all indices within the shape, the results always stay within the shape / number of elements, and the order is row-major.',
  'all ranks, all shapes with positive extents, all in-range indices',
  'A finite number of (shape, index) samples cannot exclude an error at some rank, extent or boundary.',
  [K+'index_util.hpp: linear_idx_to_idxs, idxs_to_linear_idx', K+'domain_decomposition.hpp: linear_to_shape_index', A+'detail/idx_converter.hpp: IdxConverter'])
p('Array visitors visit every cell of the hyperslab once, in row-major order',
  'Visiting an array (or a hyperslab of an array given by begin and end indices) calls the visitor exactly once for every cell of the hyperslab and for no other cell, in row-major order.',
  'all ranks, all begin/end indices',
  'Every shape, rank and hyperslab must be covered; tests look at a few.',
  [K+'array_visitor.hpp: visit_array, ArrayVisitor, Cursor'])
p('Partitions are spread over localities in a balanced, order preserving way',
  'When a partitioned array is created, every partition is assigned to an existing locality, consecutive partitions (along the curve) go to the same or a later locality, every locality gets at least one partition when there are at least as many partitions as localities, and the number of partitions per locality differs by at most one. With fewer partitions than localities array creation throws.',
  'all numbers of partitions and localities',
  'Depends on the rounding of an integer mapping for every pair of numbers.',
  [K+'math.hpp: map_to_range', A+'create_partitioned_array.hpp: LocalityIdxByPartitionIdx'])
p('The space filling curve visits every partition exactly once',
  'The generalized Hilbert curve used for assigning partitions to localities terminates and visits every cell of a non-empty rectangle of any size exactly once, and visits no other cell.',
  'all 2D shapes',
  'The recursion splits on parity and size relations; only an induction over all shapes covers them.',
  [K+'hilbert_curve.hpp: hilbert_curve', K+'linear_curve.hpp: linear_curve', A+'create_partitioned_array.hpp: LocalityIdxByPartitionIdx'])
p('Partitioned array created from a buffer holds that buffer',
  'A partitioned array created from a row-major buffer contains at array index (i, j) the buffer element i * nr_cols + j, whatever the partition shape; every buffer element is copied to exactly one partition cell and no read is outside the buffer.',
  'all array shapes, partition shapes, and buffers',
  'Offsets depend on the partitioning; an error may only show for uneven partitionings.',
  [A+'create_partitioned_array.hpp: InstantiateFromBuffer, create_partitioned_array'])
p('Local operations handle no-data and domain per cell, independent of partitioning',
  'A unary, binary or ternary local operation (including where) yields for every cell: no-data when an input is no-data, no-data when the inputs are outside the domain of the operation, no-data when the result is out of range, otherwise the functor applied to the inputs. The result does not depend on the partitioning or on the order in which partition tasks complete.',
  'all arrays, partitionings, functors and policies',
  'Has to hold for every combination of policies, functors, data and partitionings.',
  [A+'definition/unary_local_operation.hpp', A+'definition/binary_local_operation.hpp', A+'definition/ternary_local_operation.hpp', A+'definition/where.hpp', A+'policy/all_values_within_range.hpp'])
p('Aggregation over a partitioned array equals aggregation over all valid cells',
  'A unary aggregate operation (sum, minimum, maximum, all, any, none, ...) returns no-data iff the array has no valid cell; otherwise, provided the aggregation is associative and commutative and no partial aggregate of a partition collides with the no-data value, it returns the aggregate over all valid cells of the array, whatever the partitioning. When a partial aggregate does collide with the no-data marker that partition is silently dropped.',
  'all arrays, partitionings, no-data patterns and aggregators',
  'Interaction between partitioning and no-data pattern is combinatorial, and the collision is only visible for specific values.',
  [A+'unary_aggregate_operation.hpp', A+'definition/sum.hpp', A+'definition/minimum.hpp', A+'definition/maximum.hpp'])
p('unique returns exactly the set of valid values',
  'The unique operation returns a set containing a value iff that value occurs in a valid cell of the array, whatever the partitioning and the order in which partition results arrive.',
  'all arrays, partitionings and completion orders',
  'All no-data patterns, partitionings and merge orders must be covered.',
  [A+'definition/unique.hpp'])
p('Zonal statistics are computed over the whole zone, whatever the partitioning',
  'A zonal operation (sum, mean, minimum, maximum, diversity, majority, area) assigns to every cell with a valid zone the statistic over all cells of the array with the same zone and a valid value; it assigns no-data to cells with a no-data zone and to zones without any valid value. The result does not depend on the partitioning or on the merge order (for statistics whose accumulation is commutative and associative).',
  'all value and zone arrays, no-data patterns and partitionings',
  'The result must be independent of how zones are cut by partition borders.',
  [A+'definition/zonal_operation.hpp', A+'definition/zonal_sum.hpp', A+'definition/zonal_mean.hpp', A+'definition/zonal_minimum.hpp', A+'definition/zonal_maximum.hpp', A+'definition/zonal_diversity.hpp', A+'definition/zonal_majority.hpp', A+'definition/zonal_area.hpp'])
p('unique_id hands out distinct identifiers for every completion order',
  'Whatever the order in which input partitions become ready, unique_id processes every partition exactly once and stores its result at its own position; the values assigned to true cells are pairwise distinct over the whole array; false cells get 0 and no-data cells stay no-data.',
  'all arrays, partitionings and completion orders of the input partitions',
  'Completion order is chosen by the runtime; tests cannot enumerate the schedules.',
  [A+'definition/unique_id.hpp'])
p('cell_index returns the array index of every cell',
  'cell_index(array, dim) stores in each cell the index of that cell along dimension dim in the whole array, provided the partitions are square (or there is a single partition along the dimension). For non-square partitions the implementation uses the partition extent of the other dimension and is wrong.',
  'all array and partition shapes',
  'The default and tested partitionings are square; the failing shapes are not sampled.',
  [A+'definition/cell_index.hpp'])
p('Downscaling copies the enclosing source cell',
  'Downscaling an array by an integral factor creates an array in which cell (i, j) contains the value of source cell (floor(i/factor), floor(j/factor)). This holds when, along each dimension, there is a single partition or the surplus cells r of the last partition satisfy factor * r < p or p < factor * r < 2p (p: partition extent); for all other partitionings the implementation copies from the wrong source cells. All reads are within the source partitions, a factor of zero is refused, and a factor of one copies the array.',
  'all source arrays, source partitionings, target partition shapes and factors',
  'Alignment of source partitions, target partitions and the factor is combinatorial.',
  [A+'definition/resample.hpp', A+'detail/resample.hpp'])
p('Focal operations do not depend on the partitioning',
  'For every kernel of radius r and partitioning whose partitions are large enough for the kernel, the value a focal operation computes for a cell is the functor applied to the (2r+1) x (2r+1) window around that cell in the whole array extended with the halo values; all reads are within the bounds of the neighbouring partitions.',
  'all arrays, partitionings, kernel radii and functors',
  'Nine halo cases (four corners, four sides, inner), each with offsets depending on shapes of up to nine partitions.',
  [A+'definition/focal_operation.hpp', A+'detail/halo_partition.hpp', A+'policy/fill_halo_with_constant_value.hpp'])
p('Kernels have the documented geometry',
  'A box kernel of radius r has shape 2r+1 in each dimension and one weight everywhere; a circle kernel contains exactly the cells whose Euclidean distance to the centre is at most r; it is symmetric under reflection and transposition, contains the centre and always the four extreme cells.',
  'all radii',
  'All radii must be covered.',
  [A+'kernel.hpp: box_kernel, circle_kernel, Kernel'])
p('Focal statistics skip no-data and unweighted cells',
  'focal sum / mean / minimum / maximum / majority return no-data iff no valid cell carries a non-zero weight, otherwise the statistic over precisely the valid cells carrying weight: minimum <= mean <= maximum, the minimum and maximum occur in the window, the majority value occurs most often and ties go to the smallest value.',
  'all windows, kernels, no-data patterns',
  'All windows must be covered.',
  [A+'definition/focal_sum.hpp', A+'definition/focal_mean.hpp', A+'definition/focal_minimum.hpp', A+'definition/focal_maximum.hpp', A+'definition/focal_majority.hpp'])
p('D8 flow direction points to the steepest strictly lower neighbour and is free of cycles',
  'd8_flow_direction assigns to each valid cell the direction of a valid neighbour with the largest positive drop (ties: first in the documented order), a sink when there is none; following the resulting directions never revisits a cell, so that every path ends in a sink or leaves the array (cells outside of the array take part as neighbours when the halo value is a valid one; when it is no-data all paths end in a sink), for every elevation model.',
  'all elevation arrays of any size with any no-data pattern',
  'Acyclicity is a global property of all elevation models.',
  [A+'definition/d8_flow_direction.hpp', A+'flow_direction.hpp'])
p('Inflow count equals the number of neighbours draining into the cell, whatever the partitioning',
  'In a network in which no cell drains into a no-data cell, inflow_count returns for each cell with a valid flow direction the number of its (at most eight) neighbours in the whole array that flow into it, and no-data otherwise, provided that the requested partition shape has at least two rows and columns; in partitions of a single row or column the counts are wrong or memory outside the partition is accessed.',
  'all flow direction arrays and partitionings with partition extents >= 2',
  'Eight halo cases and all direction patterns.',
  [A+'definition/inflow_count.hpp', A+'detail/inflow_count.hpp'])
p('Flow accumulation visits every cell exactly once and is independent of the schedule',
  'On a flow direction network without cycles the accumulating router finishes; every cell is solved exactly once, after all its upstream cells, for every interleaving of partition tasks and messages between them; for accu the outflow of each cell is the sum of the external inflow over the cell and all cells upstream of it. Cells on or downstream of a cycle are never solved.',
  'all flow networks, partitionings, and schedules of intra- and inter-partition work',
  'Schedules are chosen by the runtime, their number is exponential.',
  [A+'definition/accumulating_router.hpp', A+'definition/accu.hpp'])
p('No-data propagates downstream and nowhere else',
  'After routing material through an acyclic network, the result of a cell is no-data iff the cell itself, or a cell upstream of it, has a no-data flow or external inflow (or a no-data parameter), for every schedule.',
  'all networks, no-data patterns and schedules',
  'Global property over all no-data patterns and schedules.',
  [A+'definition/accu.hpp', A+'definition/accu_threshold.hpp', A+'definition/accumulating_router.hpp'])
p('Threshold, fraction, capacity and trigger routing conserve mass',
  'For accu_threshold, accu_fraction, accu_capacity and accu_trigger: in each valid cell outflow + remainder equals external inflow + inflow from upstream, outflow and remainder are non-negative for non-negative inputs and respect the bound of the operation (remainder <= threshold, outflow <= capacity, ...); over the whole network the external inflow equals the sum of the remainders plus the outflow of the sinks, for every schedule.',
  'all networks, inputs, parameters and schedules (exact arithmetic)',
  'Mass conservation is a global sum over networks of any size.',
  [A+'definition/accu_threshold.hpp', A+'definition/accu_fraction.hpp', A+'definition/accu_capacity.hpp', A+'definition/accu_trigger.hpp'])
p('upstream and downstream are dual',
  'upstream(fd, m) is in each cell the sum of m over exactly those cells whose downstream cell it is (no-data when the cell or one of those has a no-data value); downstream(fd, m) is in each cell the value of m in its downstream cell, and its own value in a sink. Hence sum over c of upstream(m)(c) equals the sum of m over the cells draining to another cell.',
  'all networks and materials',
  'Sums over networks of any size.',
  [A+'definition/upstream.hpp', A+'definition/downstream.hpp'])
p('Clumping within a partition yields connected components',
  'Within a partition two valid cells get the same clump id iff they are connected by a path of neighbouring (4- or 8-connected) cells with the same zone; ids are consecutive numbers starting at zero; no-data zones get no-data; the flood fill terminates.',
  'all zone arrays, both connectivities',
  'Scan line flood fill has many interacting cases; shapes of clumps are unbounded.',
  [A+'definition/clump.hpp: flood_fill_nondiagonal, flood_fill_diagonal, clump_partition'])
p('Merging clumps over partition borders is sound',
  'Cells that get the same global clump id always are connected (in the whole array). The converse fails: the merge of the sets of equal ids does a single pass which is not transitive, so a connected clump spanning several partitions can keep more than one id.',
  'all arrays and partitionings',
  'Failing case needs a specific chain of partitions and order of sets.',
  [A+'definition/clump.hpp: determine_reclass_tables, merge_clump, reclass_partition'])
p('decreasing_order visits the largest cells in order',
  'The route created by decreasing_order visits cells in order of non-increasing value, visits no cell twice, skips no-data, and contains the max_nr_cells largest ones (or all), independent of the partitioning, provided the sentinel used for exhausted partitions is not larger than any value. For floating point values the sentinel is the smallest positive number: non-positive values in the last remaining partition are dropped.',
  'all value arrays, partitionings and maxima',
  'Ordering across partitions is a global property; the sentinel case needs a specific value distribution.',
  [A+'definition/decreasing_order.hpp', F+'partitioned_route/include/lue/framework/serial_route.hpp'])
p('first_n marks exactly the first n cells of each route',
  'first_n marks (with 1) exactly the first n cells of each route (all of them when the route is shorter); all other cells contain no-data. Each partition becomes ready exactly once, after all its cells have their final value, and the operation ends, whatever the order in which messages between partitions are delivered, provided that the result of a partition is asked for before the walk through that partition has finished. If the walk is faster, the promise of that partition is satisfied twice, which throws.',
  'all routes over any partitions, all n, all orders in which tasks run and messages are delivered',
  'Routes of any length over any number of partitions.',
  [A+'definition/first_n.hpp', A+'walk.hpp'])
p('Serialized I/O runs in order of generation',
  'Tasks attached to a serializer key run in increasing order of their generation (count), never before their predecessor finished, whatever the order in which they are requested; when all generations up to n have been requested and finish, none of these waits forever; a generation that is never requested blocks all later ones.',
  'all orders of requests and completions, all keys',
  'All interleavings of requests and completions.',
  [F+'io/include/lue/framework/io/serializer.hpp'])
p('simulate runs all time steps in order, with a bounded number in flight',
  'run_deterministic calls the model for time steps 1..n once each, in order, waits for all of them to finish before finalizing, and never waits for anything else; once the first time step is ready, at most rate_limit time steps are in flight (before that, rate_limit + 1 can be: the code does not enforce its documented limit during the first time step), for every order in which the states of the time steps become ready.',
  'all numbers of samples, time steps, rate limits and completion orders',
  'All asynchronous completion orders must be considered.',
  [F+'model/include/lue/framework/model/simulate.hpp'])
p('Data written to a LUE dataset is read back unchanged, whatever the partitionings',
  'Writing a partitioned array to a LUE array and reading it with any partition shape returns the original values; each array cell is written exactly once per time step, in any order of partition writes; hyperslabs for different time steps never overlap.',
  'all arrays, write and read partitionings, write orders, time steps',
  'All pairs of partitionings and write orders.',
  [F+'io/include/lue/framework/io/to_lue.hpp', F+'io/include/lue/framework/io/from_lue.hpp', F+'io/include/lue/framework/io/util.hpp'])
p('Copies of partition data share elements; assignment keeps other handles intact',
  'Copies of partition data share the same elements. Move-assigning to a handle leaves the data of unrelated handles untouched; the implementation violates this for handles sharing the buffer of the assigned-to handle: it clears their elements.',
  'all histories of copy, move and assignment',
  'Aliasing depends on the history of operations.',
  [F+'partitioned_array/include/lue/framework/partitioned_array/shared_buffer.hpp'])
p('Automatically chosen partition shapes are usable',
  'The default partition shape always has positive extents, and for one worker thread it is the array shape; it fits in the array whenever the array is not extremely elongated; the shape for a minimum number of partitions yields at least that number of partitions when the extents are large enough. Counterexamples exist: for elongated arrays the returned shape can have a zero extent or not fit in the array.',
  'all array shapes and thread counts',
  'Elongated shapes are not sampled by tests.',
  [K+'domain_decomposition.hpp: default_partition_shape, max_partition_shape'])
p('Arrays own exactly nr_elements(shape) elements',
  'After any sequence of construction, copy, move, assign, reshape an array owns exactly as many elements as its shape says, copies do not alias, and indices within the shape map to distinct elements.',
  'all histories of operations on arrays',
  'Histories are unbounded.',
  [K+'array.hpp', K+'shape.hpp'])
p('reclassify looks values up; zonal_uniform and zonal_normal draw one number per zone',
  'reclassify assigns to each cell the value associated with the cell value in the lookup table, and no-data when the cell is no-data or not in the table. zonal_uniform and zonal_normal assign the same random number to all cells of a zone, use one draw per zone, and assign no-data to cells without a zone.',
  'all lookup tables, arrays, partitionings, completion orders',
  'All arrays and completion orders of two rounds of tasks.',
  [A+'definition/reclassify.hpp', A+'definition/zonal_uniform.hpp', A+'definition/zonal_normal.hpp'])
p('Calls to to_lue and from_lue for the same dataset behave as if executed one after the other',
  'With serial I/O, for every sequence of to_lue and from_lue calls on a dataset and every schedule of the tasks in all processes: the dataset is never open for writing twice at the same time; once a task has opened the dataset, all earlier to_lue calls have closed it; as long as a from_lue call has it open, the dataset contains the result of exactly the earlier to_lue calls; there is no deadlock; the final contents are those of executing the to_lue calls in order. If HDF5 is thread-safe and an array with time steps is read more than once between writes, the dataset can be opened for writing while it is still open for reading (the code does not prevent this), and processes that hold no partitions of an earlier array hang.',
  'all sequences of calls, distributions of partitions over processes, schedules of tasks',
  'Requires specific interleavings of tasks in multiple processes; the observed failures are rare.',
  [F+'io/include/lue/framework/io/to_lue.hpp', F+'io/include/lue/framework/io/from_lue.hpp', F+'io/source/lue.cpp'])
p('Integer arithmetic and conversions give the exact result or no-data',
  'With the default (value) policies, add, subtract, multiply, divide, modulus, negate and abs of integral elements, and casts between integral types, give per cell the exact mathematical result if that is a valid value of the element type, and no-data otherwise; a valid value is never silently wrapped around. With other no-data values this holds for add, subtract, multiply, abs and cast, but not for divide: the smallest signed value divided by -1 is accepted. Casting floating point values rounds towards zero values which are between the limits of the integral type, and gives no-data for others; if the largest integral value cannot be represented in the floating point type (e.g. float to int32) the next power of two is accepted too, although it does not fit.',
  'all integral types, element values, no-data values, overloads, partitionings and orders of completion',
  'The pairs of 64 bit values cannot be enumerated.',
  [A+'out_of_range.hpp', A+'value_policies/add.hpp', A+'value_policies/multiply.hpp', A+'value_policies/divide.hpp', A+'value_policies/cast.hpp', A+'value_policies/abs.hpp', A+'modulus.hpp', A+'negate.hpp'])
p('Values of objects stored in a dataset are the values read back',
  'For values with the same array shape for all objects, with different shapes, and with different shapes and multiple locations in time: after any sequence of expanding, writing and reopening, reading the arrays of objects gives the elements written last, or the fill value for arrays never written, and never elements of another object; reading or writing past the last array, or of an object which was not added, throws and changes nothing; adding objects succeeds exactly if their ids are new and different; the number of objects reported equals the number of objects stored, unless an earlier call to add objects threw halfway or two C++ objects for the same value are used (the code loses count then). Adding objects given a flat array of extents only works for arrays with rank 2.',
  'all array shapes, element values, ids and sequences of operations',
  'Histories are unbounded, and the result depends on all earlier operations.',
  ['source/data_model/cxx/source/array/same_shape/value.cpp','source/data_model/cxx/source/array/same_shape/constant_shape/value.cpp','source/data_model/cxx/source/array/same_shape/variable_shape/value.cpp','source/data_model/cxx/source/array/different_shape/value.cpp','source/data_model/cxx/source/array/different_shape/constant_shape/value.cpp','source/data_model/cxx/source/array/different_shape/variable_shape/value.cpp','source/data_model/hdf5/source/dataset.cpp'])
p('Chunks of datasets are non-empty parts of values',
  'For every array shape and element size, the chunk shape used for a dataset has one dimension more than the arrays. If an array fits in 1 MiB, a chunk contains whole arrays, fits in 1 MiB, and takes more than half of that. Otherwise a chunk is part of an array: in each dimension at least one element and at most the extent, provided the element size to the power of the rank is at most 2^20; for ranks 1 and 2 it fits in 1 MiB. In other cases this is not guaranteed by the code: the behaviour is undefined for arrays without elements and for arrays with too many dimensions (from 7 for 8-byte elements), and for rank 3 and higher chunks can be much larger than the upper limit (64 MiB for 4-byte elements and shape 1 x 1 x n x n) or smaller than the lower limit.',
  'all array shapes and element sizes',
  'The set of shapes is infinite and failures depend on the ratio of the extents.',
  ['source/data_model/hdf5/source/chunk.cpp'])
p('The kinematic wave conserves water, for every network and schedule',
  'For every flow direction network, partitioning and schedule, kinematic_wave gives in each cell which is not on or downstream of a cycle no-data if and only if a value of some cell in its catchment is no-data or out of domain; otherwise the new discharge computed from the sum of the new discharges of the cells draining into it. For meaningful arguments (alpha, beta, time step and channel length positive, discharges and inflow not negative) there is precisely one discharge satisfying the equation; the derivative passed to the solver is that of the equation, the initial guess is positive; the discharge computed by a solver which stops early is off by at most length / time step times the residual. If the solver finds the root, the water balance of every catchment holds: outflow during the time step plus water in the reaches afterwards equals the water in the reaches before plus lateral inflow. Discharge is never negative, cells without water stay dry, extraction takes at most the discharge. With the value policies negative lateral inflow (documented as extraction) results in no-data.',
  'all networks, partitionings, schedules, real-valued arguments',
  'Networks and schedules cannot be enumerated; water balance is a statement about sums over catchments of any size and about all real arguments.',
  [A+'definition/kinematic_wave.hpp', A+'value_policies/kinematic_wave.hpp', A+'definition/accumulating_router.hpp'])
p('Gradients, slope and aspect are the same for every partitioning, and exact for planes',
  'For every elevation array, partitioning (partitions of at least 3 x 3 cells), cell size and order of completion of the tasks, gradients, slope and aspect give in each cell a value that only depends on the elevations of the cell and its eight neighbours in the array: Horn\'s differences divided by eight times the cell size, the length of the gradient, and an angle in [0, 2 pi). The result is no-data if and only if the cell size is zero or no-data or none of the nine elevations is known. For an inclined plane the gradients and slope are exact in all cells not at the border. Not correct: missing elevations count as zero, so the slope of a flat surface at the border depends on its elevation; the aspect is the angle of the gradient only if the surface changes in one of the directions of the axes or equally in both (otherwise the components are swapped), and it is the direction going up instead of down.',
  'all arrays, partitionings, cell sizes, orders',
  'Infinitely many surfaces; the tests of slope and aspect are commented out in the repository.',
  [A+'definition/gradients.hpp', A+'definition/slope.hpp', A+'definition/aspect.hpp', A+'definition/convolve.hpp', A+'value_policies/convolve.hpp'])
p('Rasters are read and written completely, whatever the partitioning and order',
  'from_gdal returns, for every raster, partition shape, number of localities and order, an array with in each cell the value of the corresponding cell of the raster, or no-data if the raster\'s no-data value is in the cell; reading a hyperslab around a center cell does this for the cells around the center, and is refused if and only if these are not all within the raster. to_gdal writes the value of each cell of the array to the corresponding cell of the raster, whatever the order in which the partitions become ready, and reading the raster written gives the array back. Extents must be smaller than 2^31; larger ones silently wrap around. If the clone raster has another shape, to_gdal throws, after the raster has been replaced already.',
  'all rasters, hyperslabs, partitionings, numbers of localities, orders in which partitions become ready',
  'All partitionings and orders in which partitions become ready.',
  [F+'io/include/lue/framework/io/gdal.hpp', F+'io/source/gdal.cpp.in', 'source/data_model/gdal/source/raster_band.cpp', K+'hyperslab.hpp', A+'create_partitioned_array.hpp'])
p('Operations that depend on the position of cells and partitions',
  'For every array, partitioning and order of completion of tasks: mesh_grid assigns to each cell the first value plus the row (or column) index of the cell times the step; array_like gives an array with the same partitions and the fill value in each cell; array_partition_id gives each cell the row-major index of its partition; locality_id and timestamp give one element per partition, at the position of the partition; partition_count_unique gives per partition the number of different valid values in it (no-data if there are none), at the position of the partition if all partitions have the same shape. range numbers the cells of an array consecutively, row by row, if the number of columns is a multiple of the number of columns of a partition or if there is a single row or column of partitions; in all other cases two different cells get the same number (bug). If the last partition is larger, the offset recorded in it by partition_count_unique is wrong (bug).',
  'all arrays, partitionings, orders of completion',
  'The failures depend on the ratio of array and partition extents; all orders of completion.',
  [A+'range.hpp', A+'mesh_grid.hpp', A+'array_like.hpp', A+'array_partition_id.hpp', A+'locality_id.hpp', A+'timestamp.hpp', A+'partition_operation.hpp', A+'partition_count_unique.hpp'])
p('Indexing the arrays of a dataset from Python selects and assigns what NumPy would',
  'For every array of any rank and every integer, slice or sequence of integers and slices without negative steps: array[key] returns the elements at all combinations of the positions picked per dimension, in row-major order, with the dimensions for which an integer is passed left out; it throws if and only if an integer is out of range, a step is zero, or there are too many indices. array[key] = values with the right number of values replaces the selected elements by the values in row-major order and keeps all others, so that array[key] then returns the values; with another number of values a slice or a sequence throws. array[key] = number replaces all selected elements if the key is an integer or a slice with step one. Encoded strings assigned to a whole array are stored.',
  'all ranks, extents, keys (start, stop, step, negative indices), contents',
  'Keys and extents are unbounded; clipping of negative and too large limits and dropping dimensions interact.',
  ['source/data_model/python/source/core/array.cpp', 'source/data_model/hdf5/source/dataset.cpp', 'source/data_model/hdf5/source/hyperslab.cpp', 'source/data_model/hdf5/source/vlen_memory.cpp'])
p('integrate accumulates along routes, for every partitioning and schedule',
  'For every set of routes through the cells of an array, partitioning, integrand, maximum number of cells and order in which tasks run and messages between partitions are delivered: no assertion fails, all executions end, and all partitions of the result become ready once. Each cell that is among the first max_nr_cells of its route and has a value in the integrand contains the sum of the values of the integrand of the cells of the route up to and including this cell, added in the order of the route (so the result is the same to the last bit for every schedule); cells with no-data in the integrand count for the maximum but not for the sum. All other cells contain no-data. This assumes that a component is asked for its result before it has finished; otherwise that call throws.',
  'all routes, partitionings, integrands, maxima, schedules',
  'The number of orders of messages grows exponentially with the number of fragments of routes.',
  [I+'integrate.hpp', A+'walk.hpp', A+'routing/walk/accumulator.hpp', A+'routing/walk/cell_counter.hpp'])
p('What integrate_and_allocate allocates',
  'For every set of routes, inputs, demands, productions, partitioning and schedule: no assertion fails, all executions end, all results become available. If in some zone production is less than demand (in the first crop in which they differ), nothing is allocated in any zone: all crop fractions are no-data (the condition for continuing the walk is the opposite of what is meant). If there is no such zone, all cells of a piece of a route up to the first one that misses an input contain zero for all crops except grass, and a fraction of grass that depends on those of the preceding cells in the piece; other cells contain no-data. The zonal productions returned are always zero.',
  'all routes, inputs, zones, crops, partitionings, schedules',
  'Schedules cannot be enumerated; the only test of this operation does not check its results.',
  [I+'integrate_and_allocate.hpp', A+'walk.hpp'])
p('Objects in a file are open for exactly as long as an instance refers to them',
  'Instances of the classes representing files, groups, datasets, attributes, datatypes and dataspaces behave like variables naming an HDF5 object: in every sequence of construction, copying, moving, copy- and move-assignment (self-assignment included), destruction, reopening of objects which are open already, opening that fails, and closing of objects by HDF5 itself, an object is open if and only if an instance that still exists names it; it is closed exactly once, by the operation that removes the last name; is_valid tells whether the object an instance names is open; when all instances are gone nothing is left open.',
  'all histories of operations on any number of instances and objects',
  'Histories cannot be enumerated; leaks and double closes only show up as files which cannot be reopened later.',
  ['source/data_model/hdf5/source/identifier.cpp', 'source/data_model/hdf5/include/lue/hdf5/identifier.hpp'])
p('Validation accepts a dataset if and only if it is consistent',
  'Validating a dataset reports no errors if and only if: in all property sets of all phenomena identifiers are unique, active sets are stored in order and within the collection of active objects, no object is active twice at a moment, active objects are known; the time domain has ordered items, one per active set; the space domain has an item per (active) object; each property has the arrays its kind requires for the objects and moments tracked; and properties that discretize others have the right kind and number of values. Then the active sets together contain every active object exactly once from the start of the first set. Validation never reads outside the collections if there is an object index for each active object. Not detected: active objects before the first set, object arrays referred to more than once, wrong counts in properties that discretize time; fewer object indices than active objects makes the validation read outside memory (bug).',
  'all datasets: any number of universes, phenomena, property sets, properties, objects, moments, valid or not',
  'A validator must be right for all invalid datasets as well, of which there are infinitely many kinds; tests contain a few.',
  ['source/data_model/cxx/source/validate.cpp', 'source/data_model/cxx/include/lue/validate.hpp'])
p('NumPy arrays and partitioned arrays are converted into each other without changing values',
  'from_numpy returns, for every NumPy array of rank 2, partition shape that fits (or the default one) and number of localities, an array with in each cell the value in the corresponding cell of the NumPy array, or no-data if that value is the no-data value passed in. to_numpy returns a NumPy array of the same shape with in each cell the value of the array, or the no-data value passed in if it is no-data; nothing is written outside of the buffer and all of it is written. Converting back and forth without no-data values gives the NumPy array back, exactly. With no-data values, elements equal to the value or to LUE\'s own representation of no-data (for example 255 in case of unsigned 8 bit integers) come back as the no-data value, others unchanged; and the array obtained from an exported array is no-data exactly in the cells that were no-data or contained the no-data value. Other ranks and partition shapes which do not fit are refused. create_array gives an array of the element type asked for with the fill value everywhere, if the type is supported and the value can be converted.',
  'all NumPy arrays, arrays, partition shapes, numbers of localities, no-data values, element types and contents of uninitialised memory',
  'All partitionings and all values; the failures are in combinations of enlarged last partitions and special values.',
  ['source/framework/python/source/numpy/from_numpy.cpp', 'source/framework/python/source/numpy/to_numpy.cpp', 'source/framework/python/source/core/create_partitioned_array.cpp', 'source/framework/algorithm/include/lue/framework/algorithm/create_partitioned_array.hpp: InstantiateFromBuffer, InstantiateFilled'])
p('Python operators compute per cell what the expression says',
  'For every Python expression built from arrays with the same partitioning, scalars, Python numbers and the operators < <= == != > >= + - * / // % ** | ^ & ~ - and abs, the result stands for the field obtained by evaluating, in each cell, the operation named by each operator on the values of its left and its right operand, in that order, whichever of both operands is the array, scalar or number: the reflected methods which Python calls when the left operand does not know about arrays give the same result. The result is an array if one of the operands is an array, else a scalar, has boolean (uint8) elements in case of comparisons and logical operators and else the element type of the operands, and does not depend on the order in which tasks complete. There is one exception: a number % a scalar gives the scalar % the number. Combinations that are not supported (different element types, numbers which can not be represented, logical operators on floating point numbers, * // ** on integral elements) raise a TypeError, except that == and != then result in a Python boolean. A chain of comparisons (a < b < c) of arrays or scalars always raises a ValueError.',
  'all expressions, element types, arrays, values, partitionings, completion orders of tasks and contents of uninitialised memory',
  'All expressions and combinations of operand kinds; a swapped argument of a reflected operator only shows for non-commutative operators with the array at the right.',
  ['source/framework/python/include/lue/py/framework/core/partitioned_array.hpp: bind_partitioned_array', 'source/framework/python/include/lue/py/framework/core/scalar.hpp: bind_scalar'])
p('Raster views show a dataset as named rasters with named layers',
  'For every history of adding phenomena, creating raster views (constant or variable), opening raster views, adding layers, adding other properties, writing and reading (parts of) layers through any of the views, asking whether there is a raster, and closing and reopening the dataset, each operation returns or throws exactly what is expected of a collection of rasters, identified by the names of phenomenon and property set, with named layers: a view opened has the geometry with which the raster was created and lists all its layers, sorted, and no others; a new layer is filled with the no-data value; what is written to a layer is read back by every view which knows the layer until it is written again, whatever else happens; a layer never disappears; creating a raster that exists, or adding a layer of which the name is in use, fails and leaves all rasters as they are. In files written by other software, exactly the property sets which have the structure of a raster are recognized as such, and a view which is opened lists exactly the properties which are discretized by the grid of the raster as its layers.',
  'all histories, numbers of rasters, layers and views, grid shapes, numbers of time steps, boxes, names, object IDs, hyperslabs and buffers',
  'Interleavings of any number of views on shared property sets are unbounded; a view that scans the wrong collection or follows the wrong link only fails for certain combinations of rasters and properties.',
  ['source/data_model/hl/source/raster_view.cpp: constant::create_raster_view, variable::create_raster_view, RasterView::RasterView, add_layer, layer, contains_raster', 'source/data_model/cxx/source/info/property/property_group.cpp: set_space_discretization, space_discretization_property'])
p('Comparing GDAL rasters reports differences if and only if there are any',
  'For every pair of valid rasters, compare_rasters reports no differences if and only if the rasters have the same shape, geo-transform, number of bands and element type, and all bands have the same no-data settings and the same value in each cell (NaNs that mark no-data are equal to each other); comparing never touches memory outside of the blocks read. A raster that does not exist, and differences in metadata, are always reported.',
  'all rasters: extents, block shapes, element types, no-data values, numbers of bands, cell values and padding of edge blocks',
  'The extents and block shapes of rasters are unbounded, and a mistake in the number of valid cells of a block only shows for certain combinations of extents, block shapes and locations of differing cells.',
  ['source/data_model/gdal/source/compare_rasters.cpp: compare_values, compare_raster_bands, compare_rasters', 'source/data_model/gdal/source/blocks.cpp: Blocks, shape_in_valid_cells', 'source/data_model/gdal/source/raster_band.cpp: read_block, block_shape'])
p('Translating rasters between GDAL and LUE formats preserves them',
  'For every GDAL raster oriented to the north with square cells, and every LUE dataset in which the destination does not exist yet, importing the raster adds a raster with the same extent, shape and a layer for each selected band with exactly the cells of the band, and changes nothing else in the dataset; exporting a layer results in a GDAL raster with the extent of the raster and exactly the cells of the layer; importing followed by exporting gives the raster one started with.',
  'all rasters (extents, numbers of bands, cell values, block shapes of the format), all histories of the dataset, all names',
  'Block shapes depend on format and size of rasters; which cells are lost or where an import fails depends on the ratio between extents and block shape, which tests sample only for small rasters stored as a single block.',
  ['source/data_model/translate/source/format/gdal.cpp: blocks, gdal_to_lue, lue_to_gdal, translate_gdal_raster_dataset_to_lue, translate_lue_dataset_to_gdal_raster', 'source/data_model/gdal/source/raster_band.cpp: read_block, write_block', 'source/data_model/gdal/source/blocks.cpp: Blocks'])
p('Arrays written with write_array are read back with read_array',
  'From Python, an array written to a raster (layer, and time step) of any dataset is read back by its pathname, whatever happened before, whatever is done in between to other datasets, rasters, layers and time steps (including writes failing halfway), and however both arrays are partitioned and distributed. Reading a subset by center and extents returns exactly those cells, or throws if it does not lie within the raster. Writing and reading succeed if and only if the raster and time step exist and the shapes fit.',
  'all histories of datasets, all pathnames, arrays, partition shapes, distributions over localities, orders of partitions, centers and extents of subsets',
  'Histories, partitionings and distributions combine without bound; subsets use wrapping unsigned arithmetic, with the corner cases at negative offsets and empty extents.',
  ['source/framework/python/source/io/read_array.cpp: read_array, shape_to_offset, shape_to_shape', 'source/framework/python/source/io/write_array.cpp: write_array', 'source/data_model/hl/source/util.cpp: parse_array_pathname', 'source/data_model/hl/source/raster_view.cpp: probe_raster', 'source/data_model/hdf5/source/hyperslab.cpp: hyperslab, Hyperslab::empty'])
p('PCRaster-compatible operations mean per cell what PCRaster documents',
  'From Python, using lue.pcraster: ifthen, ifthenelse, cover, max, min, defined, boolean, nominal, ordinal, scalar, directional, ldd, spatial, uniqueid, xcoordinate and ycoordinate result in the value per cell which is documented by PCRaster, for any combination of arrays, scalars and numbers they accept: selection by condition, first value which is not missing, extreme value, true for non-zero, positive identifiers which differ, coordinates of the centre of the cell; and the result is missing if a value required is missing. Window lengths are accepted if and only if they are an odd number of times the cell size. It is settled which combinations are refused, and where the result is something else (catchmenttotal).',
  'all arrays, partitionings, orders in which tasks complete, element types, kinds and numbers of arguments, conversions of numbers, configurations',
  'The operations convert numbers and scalars depending on the other arguments, call several asynchronous local operations in sequence, and take any number of arguments; tests cover a few combinations of kinds and types, for a single partitioning.',
  ['source/framework/python/pcraster/__init__.py: harmonize_types, non_spatial_to_spatial, boolean, cover, defined, directional, ifthen, ifthenelse, ldd, max, min, nominal, ordinal, scalar, spatial, uniqueid, xcoordinate, ycoordinate, translate_window_length, catchmenttotal', 'source/framework/python/source/algorithm/local_operation/where.cpp: bind_where', 'source/framework/algorithm/include/lue/framework/algorithm/value_policies/where.hpp'])
p('lue_calculate writes the value of the expression to the rasters named',
  'Given a statement "names = expression", the lue_calculate command evaluates the expression, with each string replaced by the raster it names (environment variables expanded, and if the name has no extension, the first of name.tif and name.map which exists), functions being those of lue.framework, and writes each raster named on the left-hand side exactly once, with the (last) value assigned to it, appending .tif if the name has no extension. An input raster is used as clone, unless there is none or this is skipped. If a raster can not be read, the expression can not be evaluated, or the number of values differs from the number of names, the command fails and nothing is written. None of this depends on the order in which the names are visited, except for which of the input rasters is used as clone.',
  'all statements, expressions, names, numbers of inputs and outputs, file systems, environment variables, hash orders of sets of strings',
  'The statement is translated to a program, using generated names of variables which must not clash with each other or with other names; sets of strings are visited in an order which differs between runs; tests contain a few statements.',
  ['source/framework/python/script/lue_calculate.py: has_extension, remove_extensions, NormalizePathnamesVisitor, UniqueStringsVisitor, ReplacePathnamesVisitor, QualifyOperationVisitor, pathname_to_variable_name, pathnames_to_variable_names, statement_to_statement_block, execute_statement_block, execute'])
p('Python models run their sections for each sample and time step, and write to distinct files',
  'Running a dynamic model written in Python calls its initial section once, followed by its dynamic section once for each time step from 1 through the last one, in order, during which the current time step is the number of the time step. A Monte Carlo simulation does this for each sample from 1 on, in order, with the current sample number set, after creating a directory for each of the samples and leaving everything else alone (existing ones are emptied if requested). At each moment the calls made so far are a prefix of these. The name of the file an array is written to by report is different for different (relative) names, time steps or samples.',
  'all numbers of samples and time steps, rate limits, interleavings of tasks, names, contents of the working directory',
  'Progress is made by asynchronous tasks throttled by a rate limit; file names are built by manipulating text; tests run one small model.',
  ['source/framework/python/framework/support.py: DefaultProgressor, StaticModelRunner, DynamicModelRunner, MonteCarloModelRunner','source/framework/python/pcraster/framework/__init__.py: DynamicModel, MonteCarloModel, generateNameT, generateNameS, generateNameST','source/framework/model/include/lue/framework/model/simulate.hpp: run_deterministic, run_stochastic'])
p('timeinputscalar returns the values in the row of the time step',
  'Given a time series with a title, the number of columns, their names, and rows, timeinputscalar returns for the number of a column the value in that column of the row of the current time step, and for an array with numbers of columns an array with, in each cell, the value in the column with the number in that cell, or no-data if the cell is no-data or there is no such column. Blank lines and the amount of whitespace do not matter. A time step after the last row, a column which does not exist, and arrays whose elements can not represent the numbers of all columns, are refused. After a file has been read, its contents at that moment are used in all subsequent calls.',
  'all time series, amounts of whitespace, partitionings, orders of tasks, histories of calls and changes to files',
  'Files are cached between calls, so the result depends on the history of calls; tests contain no time series.',
  ['source/framework/python/pcraster/__init__.py: timeinputscalar','source/framework/python/source/algorithm/global_operation/reclassify.cpp'])
p('Configuration entries are read as they are written, or refused',
  'Reading a configuration entry of an integer type returns the number which is written, or throws if the text is not an optional sign and digits or if the number can not be represented. Reading a list (or shape) returns the numbers written between brackets, separated by commas and with any amount of white space, in order, or throws if one of them can not be represented (or if there are not exactly two of them). A required entry which is missing or empty is refused; an optional one gets its default value if and only if it is missing or empty, and is refused if it can not be read. Reading always terminates.',
  'all texts, numbers, list lengths, amounts of white space, configurations',
  'Lists are parsed by repeatedly searching for a regular expression, which may skip text; tests contain three lists.',
  ['source/framework/core/source/configuration_entry.cpp: required_configuration_entry, optional_configuration_entry, cast, cast_list, trim_vector, application_section'])
p('Mathematical operations on floating point elements compute the function or mark no-data',
  'For arrays (and scalars) with floating point elements that are numbers or no-data (NaN), the operations sqrt, log, log10, sin, cos, tan, acos, asin, atan, exp, abs, negate, floor, ceil, round, trunc, add, subtract, multiply, divide, modulus and pow give for each cell the rounded value of the mathematical function if the arguments are in its domain and the value is not too large for the type, and no-data otherwise; a result never contains an infinity. Comparisons give one or zero exactly as the relation between the values (infinities included) holds, logical operations as their truth table, and both no-data if and only if an argument is no-data.',
  'all arrays, partition shapes, task orders, element values, floating point types and ways of rounding',
  'The domain and range policies are distributed over one header per operation and combined with the functors by templates; tests check a few values per function.',
  ['source/framework/algorithm/include/lue/framework/algorithm/sqrt.hpp: Sqrt', 'source/framework/algorithm/include/lue/framework/algorithm/log.hpp: Log', 'source/framework/algorithm/include/lue/framework/algorithm/pow.hpp: Pow', 'source/framework/algorithm/include/lue/framework/algorithm/divide.hpp: Divide', 'source/framework/algorithm/include/lue/framework/algorithm/modulus.hpp: Modulus', 'source/framework/algorithm/include/lue/framework/algorithm/close_to.hpp: CloseTo', 'source/framework/algorithm/include/lue/framework/algorithm/out_of_range.hpp', 'source/framework/algorithm/include/lue/framework/algorithm/value_policies/exp.hpp: RangePolicy'])
p('Importing a JSON description extends each collection by exactly what is listed',
  'After importing a JSON document in a (new or existing) dataset, each collection of object IDs, time points, IDs of active objects, active sets, space boxes and property values consists of what was stored in it, followed by what the document lists for it, in order; nothing else changes, also not the clock of an existing property set. This holds for any number of universes, phenomena and property sets with the same or different names. Documents with values which are not a whole number of arrays, with another clock, or with a space domain for an existing property set are refused.',
  'all documents which are consistent with respect to the shapes of arrays, all datasets',
  'Documents can mention a collection any number of times, in any nesting, and appending depends on everything stored before; tests import two small documents in new datasets.',
  ['source/data_model/translate/source/format/json.cpp: translate_json_to_lue, add_phenomenon, add_property_set, add_property, add_object_tracker, add_time_points, add_space_boxes', 'source/data_model/cxx/source/array/same_shape/value.cpp: Value::expand, Value::write', 'source/data_model/cxx/source/array/different_shape/value.cpp: Value::expand', 'source/data_model/cxx/source/array/different_shape/variable_shape/value.cpp: Value::expand'])
p('The runtime runs from the moment it is started until it is stopped',
  'Whatever the interleaving of the application and the main task of the runtime: when a call to start the runtime returns, the runtime executes tasks, and it keeps doing so until it is told to stop. When a call to stop it returns, the main task has ended. Starting a runtime which runs and stopping one which does not run have no effect. Calls always return: no notification is missed and there is no deadlock. The main task does not use an instance which has been destroyed. A Python script stops the runtime, also if it does not do so explicitly or a decorated function raises.',
  'all sequences of calls by a thread, all interleavings of the threads, without spurious wakeups of the main task',
  'Missed notifications depend on the interleaving of steps of two threads, which tests do not control.',
  ['source/framework/core/source/runtime.cpp: Runtime::Runtime, Runtime::~Runtime, Runtime::hpx_main', 'source/framework/python/source/hpx_runtime.cpp: HPXRuntime', 'source/framework/python/source/submodule.cpp: start_hpx_runtime, stop_hpx_runtime', 'source/framework/python/framework/__init__.py: runtime_scope'])
p('References to environment variables are replaced by their values',
  'In names of datasets in JSON descriptions, each reference to an environment variable is replaced by the value of the variable, or by nothing if it is not set, and everything else is kept. This always ends.',
  'all texts in which dollar signs are only used for references, all environments with values without dollar signs',
  'Texts and environments are unbounded, and the position at which searching continues depends on all values inserted so far.',
  ['source/data_model/utility/source/environment.cpp: expand_environment_variables'])
p('Operations on fields mean the same for all kinds of fields, or throw',
  'An expression with fields (arrays, scalars and literals, without static types) evaluates to the field with in each cell the value of the expression for the values in that cell. The result is an array if one of the operands is an array, and a scalar otherwise. If an operation is not defined for the types of its arguments, for example because the element types differ, an exception is thrown: nothing is converted. From C, fields are handles: a handle refers to the same field until it is destructed, whatever is done with other handles, and once all of them are destructed no memory is left. A scalar created from a number has that number as value.',
  'all expressions, all combinations of kinds and element types of fields, all orders in which tasks complete, all sequences of calls from C, numbers up to 2^53',
  'There are thousands of combinations of operations and types of arguments, for which the compiler selects the function called. Expressions, orders of tasks and sequences of calls are unbounded.',
  ['source/framework/api/cxx/include/lue/framework/api/cxx/field.hpp.in: Field', 'source/framework/api/cxx/include/lue/framework/api/cxx/variant_wrapper.hpp: VariantWrapper', 'source/framework/api/cxx/source/local/add.cpp: add', 'source/framework/api/cxx/source/local/where3.cpp: where', 'source/framework/api/cxx/source/local/where2.cpp: where', 'source/framework/api/cxx/source/detail/unsupported_overload.hpp: unsupported_overload', 'source/framework/api/cxx/include/lue/framework/api/cxx/operator.hpp: operator+', 'source/framework/algorithm/include/lue/framework/algorithm/binary_local_operation.hpp: LUE_BINARY_LOCAL_OPERATION_OVERLOADS_WITHOUT_POLICIES_SAME_OUTPUT_ELEMENT', 'source/framework/api/c/source/local_operation.cpp: where', 'source/framework/api/c/source/field.cpp: destruct_field', 'source/framework/api/python/source/scalar.cpp: create_scalar'])
p('Scalability experiments run what is asked for, and report what was measured',
  'The script of a strong or weak scalability experiment starts the program exactly once for each number of workers that is part of the pool described (minimum, minimum times multiplier, or plus increment, and so on, up to and including the maximum), in increasing order, with a result file per number of workers. Each run uses exactly that number of workers of the type asked for and never more nodes, NUMA nodes or cores than the cluster has. The size of the array is the same for all runs (strong), or, within 0.1%, proportional to the number of workers (weak). After storing the settings in the dataset and reading them back, the same runs are asked for. Results are imported if and only if all files exist: one measurement per number of workers, ordered by time, whatever the order in which the benchmarks were performed. Relative speed-up is t1 / tn, and relative efficiency is 100% * t1 / (n * tn) (strong) or 100% * t1 / tn (weak), for each repetition. Ranges of shapes have the numbers of elements asked for, and no shape has more than that.',
  'all descriptions of pools, clusters and benchmarks, all start times and durations of benchmarks, all shapes and ranges of shapes',
  'Pools, clusters, shapes, and the order in which a scheduler starts jobs can be combined in an unbounded number of ways.',
  ['source/quality_assurance/scalability/command/scalability/experiment/pool.py: permutation_size', 'source/quality_assurance/scalability/command/scalability/experiment/worker.py: Worker', 'source/quality_assurance/scalability/command/scalability/experiment/benchmark.py: Benchmark', 'source/quality_assurance/scalability/command/scalability/experiment/cluster.py: Cluster', 'source/quality_assurance/scalability/command/scalability/experiment/shape.py: range_of_shapes', 'source/quality_assurance/scalability/command/scalability/experiment/util.py: sort_benchmarks_by_time', 'source/quality_assurance/scalability/command/scalability/experiment/strong_scalability/generate_script.py: generate_script', 'source/quality_assurance/scalability/command/scalability/experiment/weak_scalability/generate_script.py: scale_array_shape', 'source/quality_assurance/scalability/command/scalability/experiment/strong_scalability/import_results.py: write_scalability_results', 'source/quality_assurance/scalability/command/scalability/experiment/weak_scalability/import_results.py: write_scalability_results'])
p('Arrays with random values have the values asked for',
  'Given usable arguments (minimum <= maximum, or a positive standard deviation), uniform and normal return an array of the shape and partition shape asked for, in which every cell has a value which the distribution promises: min <= v <= max for integers, min <= v < max for reals. Each partition is filled by an engine of its own, and the result does not depend on the order in which tasks run. Given a no-data argument, all cells are no-data if an array is passed in. The values of the array passed in are not used. In Python, the element type of the result is the data type passed in, or an exception is thrown. open_simplex_noise computes, for arrays that are partitioned in the same way, in each cell the noise at the coordinates in that cell, or no-data if a coordinate is no-data.',
  'all shapes and partition shapes, all arguments, all seeds, all engines and distributions which keep the promises of the standard library, all orders in which tasks run, and all numbers of localities',
  'Random values differ at each run, and tests can only sample shapes, seeds and arguments.',
  ['source/framework/algorithm/include/lue/framework/algorithm/definition/uniform.hpp: uniform', 'source/framework/algorithm/include/lue/framework/algorithm/definition/normal.hpp: normal', 'source/framework/algorithm/include/lue/framework/algorithm/definition/open_simplex_noise.hpp: open_simplex_noise', 'source/framework/python/source/algorithm/miscellaneous_operation/uniform-2.cpp: uniform', 'source/framework/python/source/algorithm/miscellaneous_operation/normal.cpp: normal', 'source/framework/api/cxx/source/local/uniform.cpp: uniform'])
p('Focal operations in Python use the weights in the NumPy array passed in',
  'A focal operation in Python, given an array and a square NumPy array of size 2r+1 by 2r+1 which is stored row by row, has the result of the operation for the kernel whose weights are the elements of the NumPy array, for each of focal_sum, focal_mean, focal_minimum, focal_maximum, focal_majority, focal_diversity, focal_high_pass and convolve. The element type of the result is that of the array (for diversity: of counts). NumPy arrays with another rank or shape, another data type, and arrays of an element type for which an operation is not available, result in an exception. The same holds for the ids and shapes passed when object arrays of different shapes are created: exactly these object arrays are created, or an exception is thrown and nothing changes.',
  'all NumPy arrays (memory, shape, strides), all arrays and ways in which they are partitioned, all orders in which tasks run',
  'Views of NumPy arrays (transposed, flipped, sliced) have arbitrary strides; a few kernels in tests do not cover these.',
  ['source/framework/python/source/algorithm/focal_operation/array_to_kernel.hpp: array_to_kernel', 'source/framework/python/source/algorithm/focal_operation/focal_operation-1.cpp: bind_focal1', 'source/framework/python/source/algorithm/focal_operation/focal_operation-2.cpp: bind_focal2', 'source/data_model/python/source/different_shape/value.cpp: init_value'])
p('Exporting to Shapefiles writes each location of each object once',
  'lue_translate export of a property set to Shapefiles: the property set exported is the only one mentioned in the metadata for the dataset; if there is none, or more than one, or if it does not exist or has no space domain, nothing is exported. Of a valid property set with objects which move, a layer is written for each time cell, with a distinct name, containing a point for each object that is active then, in order, at its location; together the layers contain each stored location exactly once. Of a valid property set with boxes of objects which do not move, a single layer is written with, for each object in order, the closed boundary of its box. Other kinds of property sets result in an exception.',
  'all metadata, all valid property sets (numbers of objects, moments, objects active at each moment), all file names',
  'Which locations end up in which layer depends on the indices in the object tracker, for any history of activity of objects; a few datasets in tests do not cover these.',
  ['source/data_model/translate/source/format/gdal_vector.cpp: translate_lue_dataset_to_shapefile, write_shapefiles, write_shapefile, add_point_layer, add_box_layer', 'source/data_model/utility/source/metadata.cpp: has_key, object, string'])
p('Cells are classified according to their position in streams and partitions',
  'accu_info(flow_direction): whatever the order in which partitions are handled and messages arrive, nothing goes wrong, and the operation returns if and only if no cycle crosses a border between partitions. Each cell not on or downstream of a cycle gets a class that agrees with its position: no-data if its flow direction is; ridge if nothing drains into it; partition input (and output) if a cell of another partition drains into it; otherwise sink, partition output, or (inter- or intra-) partition stream cell, depending on whether the stream has entered the partition. The class does not depend on the schedule, except that of an input cell in which a stream arrives that entered the partition elsewhere. The class for confluences never occurs.',
  'all flow direction networks (valid: nothing drains into no-data cells), all partitionings with partitions of at least two by two cells, all orders in which tasks complete and messages arrive',
  'The class written last wins: which one depends on the position of cells, on the partitioning and on the schedule of tasks, of which tests see a few.',
  ['source/framework/algorithm/include/lue/framework/algorithm/definition/accu_info.hpp: CellAccumulator, accu_info', 'source/framework/algorithm/include/lue/framework/algorithm/definition/accumulating_router.hpp: accumulate, solve_intra_partition_stream_cells, monitor_material_inputs'])
p('Material leaving a partition arrives in the right cell, once',
  'ArrayPartitionIO(partition_shape, input_cells), add_output_cell, remove_input_cell, partition_offsets, partition_offset_counts, drain: whatever the history of calls, each (output cell, offset, value) that is added is either still waiting, or has been returned by exactly one call of drain, with the indices of the neighbouring cell within the neighbouring partition the cell is part of. partition_offsets are those of the partitions something is waiting for, the counts the numbers of waiting output cells. Draining to each of these, in any order, drains the partition. is_solved holds once each of the input cells has been removed. No assertion fails as long as output cells are not added twice, drain to another partition, and a drained partition is not drained again.',
  'all ranks, all partitionings of space in partitions of different shapes (including partitions of a single cell), all histories of calls, builds with and without assertions',
  'The indices depend on the position of the cell along each border and on the shapes of both partitions; tests look at a few cells of 5 by 5 partitions.',
  ['source/framework/algorithm/include/lue/framework/algorithm/detail/array_partition_io.hpp: ArrayPartitionIO', 'source/framework/algorithm/include/lue/framework/algorithm/component/server/array_partition_io.hpp: ArrayPartitionIO'])
p('Opening a dataset shows the structure that was created',
  'create_dataset, add_universe, add_phenomenon, property_sets().add (nine overloads: with and without time and space domain, shared time domain, shared object tracker), properties().add (six kinds), set_time_discretization, set_space_discretization, set_presence_discretization: whatever the sequence of calls, exactly those calls succeed for which what is referred to exists and what is added does not exist yet; others throw and have no effect. Opening the dataset afterwards gives the universes, phenomena, property-sets and properties that were added, with their descriptions, domains, clocks, items and mobility; a shared time domain or object tracker is the one of the property-set that owns it; the discretization properties are the ones that were set. The names of properties are unique within a property-set.',
  'all sequences of operations, all names, descriptions, clocks and domain configurations, all chains of shared domains of at most 16 property-sets',
  'The structure is spread over groups, attributes and soft links to absolute paths; tests create one or two objects of each kind and do not combine sharing, universes and failing calls.',
  ['source/data_model/cxx/source/object/property/property_set.cpp: create_property_set', 'source/data_model/cxx/source/object/time_domain.cpp: write_clock, read_clock, link_time_domain', 'source/data_model/cxx/source/object/property/properties.cpp: Properties', 'source/data_model/cxx/include/lue/core/collection.hpp: Collection', 'source/data_model/hdf5/source/soft_link.cpp: create_soft_link', 'source/data_model/cxx/source/object/dataset.cpp: create_dataset'])
p('Concurrent routing operations do not mix up the values they exchange',
  'inflow_count, accu, accu_threshold and the other routing operations: the task of a partition exchanges values with the tasks of the (at most eight) neighbouring partitions of the same operation only. What a partition obtains from a direction is what the partition lying in that direction sent in the opposite direction, in the same order, however many operations are running at the same time and for whatever element types; a partition that is told that nothing follows has obtained everything; a channel is never shared; registering the channel of an operation never fails because of another operation, and cleaning up after one operation does not affect another one.',
  'all sequences of calls of routing operations, all shapes of partitioned arrays, all functors and element types, all interleavings of tasks, registrations, look-ups and unregistrations',
  'The two ends of a channel find each other by a name composed of the operation, element type, a counter and a direction; tests run one operation at a time on a few partitions, and a clash shows up as a wrong result or a hang.',
  ['source/framework/algorithm/include/lue/framework/algorithm/detail/communicator.hpp: Communicator', 'source/framework/algorithm/include/lue/framework/algorithm/detail/communicator_array.hpp: CommunicatorArray', 'source/framework/algorithm/include/lue/framework/algorithm/definition/accumulating_router.hpp: create_communicators, keep_communicators_alive', 'source/framework/algorithm/include/lue/framework/algorithm/definition/inflow_count.hpp: inflow_count', 'source/framework/core/include/lue/framework/core/type_traits.hpp: as_string'])
p('Exporting a dataset to DOT draws its structure',
  'lue_translate export of a dataset to a .dot file: for every dataset that can be created, whose names do not contain characters with a special meaning in HTML, the text that is written can be read as a DOT graph, and that graph shows the structure of the dataset: each phenomenon, property-set, domain, property, and if asked for object tracker and array with values, has exactly one node, with its name, shape, fill colour and (if asked for) details; each part is pointed at by exactly one solid edge from what it is part of; there is a dashed edge for each shared object tracker or time domain and for each discretization property, labelled with the kind of discretization if asked for; universes are clusters in the cluster of the dataset; what is empty is marked as empty. Nothing else is shown, and all edges connect nodes that are shown.',
  'all datasets created by any sequence of operations, all settings in the metadata, all layouts of addresses in the file',
  'A drawing is looked at for a few examples. Whether nodes can coincide, edges can point to nodes that are not drawn or something is missing depends on the combination of sharing, kinds of values and settings.',
  ['source/data_model/translate/source/format/dot.cpp: dataset_to_dot, to_dot, link_nodes, soft_link_nodes, mark_as_empty, Subgraph', 'source/data_model/translate/source/command/export.cpp: Export'])
p('What is sent to another process arrives unchanged',
  'The arguments and results of tasks that run in another process arrive as they were sent: partition data has the same shape and elements in a new buffer of its own, and partition data that already is in the receiving process is unaffected, whatever has been done with it; kernels have the same shape, radius and weights; policies have the same no-data and fill values; functors have the same parameters; results per zone, inflow and outflow cells, communicators with their channels, fragments of routes, the state of a walk along a route and the results of clumping a partition are the same. What follows in the message is not touched, and none of the result depends on the object that is read into.',
  'all objects of these classes, all contents and sizes that can be represented, all histories of operations on partition data in both processes, all objects that are read into, whatever follows in the message',
  'Tests run in one process on one machine, in which case nothing is sent, or send a few objects. A member that is forgotten or read in a different order only shows up for some values, at some number of processes.',
  ['source/framework/partitioned_array/include/lue/framework/partitioned_array/array_partition_data.hpp: ArrayPartitionData::serialize', 'source/framework/partitioned_array/include/lue/framework/partitioned_array/serialize/shared_buffer.hpp: serialize', 'source/framework/core/include/lue/framework/core/serialize/array.hpp: serialize', 'source/framework/algorithm/include/lue/framework/algorithm/serialize/kernel.hpp: serialize', 'source/framework/algorithm/include/lue/framework/algorithm/policy/policies.hpp: Policies::serialize', 'source/framework/algorithm/include/lue/framework/algorithm/detail/communicator.hpp: Communicator::serialize', 'source/framework/algorithm/include/lue/framework/algorithm/detail/array_partition_io.hpp: ArrayPartitionIO::serialize', 'source/framework/partitioned_route/include/lue/framework/partitioned_route/serialize/serial_route_fragment.hpp: serialize', 'source/framework/algorithm/include/lue/framework/algorithm/definition/clump.hpp: LocalResult::serialize'])
p('A model gives the same results for every partitioning and schedule',
  'A program that calls operations in sequence, with branches and loops of which the conditions depend on scalars (also scalars that are the result of an aggregation), gives the same arrays and the same scalars for every shape of the partitions and every order in which tasks complete: those which it would compute with arrays that are not partitioned. It ends if and when the program working with arrays that are not partitioned ends, no task fails, and after each step the contents of all variables are the same. The partitions must be large enough for the kernels used, and flow directions must be valid and without cycles.',
  'all programs made of local, focal, zonal, routing (inflow_count, accu, accu_threshold, accu_fraction, accu_capacity, accu_trigger) and aggregate operations, all data, all numbers of steps, all pairs of partition shapes, all orders of completion, all contents of new memory, all orders of iteration over maps',
  'Tests run single operations with a few partition shapes on a machine with few workers. Whether a model calibrated on a laptop gives the same results on a cluster is a statement about all programs, partition shapes and schedules.',
  ['source/framework/algorithm/include/lue/framework/algorithm/definition/unary_local_operation.hpp: unary_local_operation', 'source/framework/algorithm/include/lue/framework/algorithm/definition/binary_local_operation.hpp: binary_local_operation', 'source/framework/algorithm/include/lue/framework/algorithm/definition/focal_operation.hpp: focal_operation', 'source/framework/algorithm/include/lue/framework/algorithm/definition/zonal_operation.hpp: zonal_operation', 'source/framework/algorithm/include/lue/framework/algorithm/unary_aggregate_operation.hpp: unary_aggregate_operation', 'source/framework/algorithm/include/lue/framework/algorithm/definition/accumulating_router.hpp: accumulating_router'])
p('Operations executed asynchronously give the results of executing them one after the other',
  'Operations return before their tasks have been executed, and tasks of different operations overlap in time. Once a program has called its operations and waited for some of the results, which may decide which operations it calls next, all executions have called the same operations, end the same way, and have given the same partitions and scalars: those obtained by executing one operation after the other. There are no deadlocks: all results become ready. A task that throws an exception only affects tasks which depend on it, directly or indirectly: the results of these contain an exception, all other results are not affected.',
  'all programs that call operations with results of previously called operations and wait for results; all interleavings of the calling thread and the tasks; all tasks that throw',
  'Which tasks overlap depends on the number of workers, the load of the machines and the network. A missing dependency or a deadlock occurs only in some of the interleavings.',
  ['source/framework/algorithm/include/lue/framework/algorithm/definition/unary_local_operation.hpp: unary_local_operation', 'source/framework/algorithm/include/lue/framework/algorithm/definition/binary_local_operation.hpp: binary_local_operation', 'source/framework/algorithm/include/lue/framework/algorithm/definition/focal_operation.hpp: focal_operation', 'source/framework/algorithm/include/lue/framework/algorithm/definition/zonal_operation.hpp: zonal_operation', 'source/framework/algorithm/include/lue/framework/algorithm/unary_aggregate_operation.hpp: unary_aggregate_operation'])
p('Scripts executed asynchronously compute what they would compute with whole arrays',
  'A script or model which combines local, focal and zonal operations, operations using flow directions (inflow_count, accu, accu_threshold and the like), aggregations, and computations with scalars, and which branches and loops depending on computed scalars, is executed asynchronously: calls return before anything has been computed, and the tasks of all operations overlap. If the script, taken as a computation with arrays that are not partitioned, comes to its end, then so does every asynchronous execution of it, no task fails, and every partition and scalar which is waited for contains the value computed with whole arrays. This does not depend on the partitioning, the order in which things happen, the contents of newly allocated memory, or the order in which unordered maps are visited. A script which goes on forever can be executed for any number of steps without a task failing.',
  'all scripts built from these operations, conditions and loops; all input arrays and scalars; all partitionings with partitions that are large enough for the kernels; all interleavings of the calling thread and the tasks; all contents of new memory; all iteration orders of maps',
  'It combines arbitrary scripts with arbitrary partitionings and all interleavings of the tasks of multiple operations. A test executes a single script with a few partitionings, in the interleavings which happen to occur.',
  ['source/framework/algorithm/include/lue/framework/algorithm/create_partitioned_array.hpp: create_partitioned_array, InstantiateFilled', 'source/framework/algorithm/include/lue/framework/algorithm/definition/unary_local_operation.hpp: unary_local_operation', 'source/framework/algorithm/include/lue/framework/algorithm/definition/binary_local_operation.hpp: binary_local_operation', 'source/framework/algorithm/include/lue/framework/algorithm/definition/ternary_local_operation.hpp: ternary_local_operation', 'source/framework/algorithm/include/lue/framework/algorithm/definition/focal_operation.hpp: focal_operation', 'source/framework/algorithm/include/lue/framework/algorithm/definition/inflow_count.hpp: inflow_count', 'source/framework/algorithm/include/lue/framework/algorithm/definition/accumulating_router.hpp: accumulating_router', 'source/framework/algorithm/include/lue/framework/algorithm/definition/zonal_operation.hpp: zonal_operation', 'source/framework/algorithm/include/lue/framework/algorithm/unary_aggregate_operation.hpp: unary_aggregate_operation'])
p('Sums of floating point numbers stay within the rounding error, however they are partitioned',
  'Adding floating point numbers is neither associative nor exact, and the numbers in an array are added in an order which depends on the partitioning, on the order in which unordered maps are visited, and, when material is routed, on the order in which it arrives. Nevertheless, if the rounding of a single addition has a relative error of at most u, then the sum of the n numbers in an array, the sum of the n numbers in a zone, and the accumulated material of the n cells in a catchment differ from the sum on paper by at most (1 + u)^(n - 1) - 1 times the sum of their magnitudes, and the mean of the numbers in a zone by a similar amount. If no sum of some of the numbers has to be rounded, as for whole numbers which are not too large, the result is exact, whatever the partitioning and the schedule. No-data is ignored, or, in case of routing, makes the cells downstream no-data.',
  'all arrays of floating point numbers, zones, flow directions and inflows; all ways of rounding with a relative error which is limited; all partitionings; all orders of completion of tasks, schedules of the routing, and iteration orders of maps',
  'The result is different for different partitionings and schedules, so that a test cannot compare with a single value. It uses a tolerance which has been found by experiment, and does not tell whether a term has been added twice or not at all if it is small.',
  ['source/framework/algorithm/include/lue/framework/algorithm/definition/sum.hpp: Sum', 'source/framework/algorithm/include/lue/framework/algorithm/definition/zonal_sum.hpp: ZonalSum', 'source/framework/algorithm/include/lue/framework/algorithm/definition/zonal_mean.hpp: ZonalMean', 'source/framework/algorithm/include/lue/framework/algorithm/definition/accu.hpp: Accu', 'source/framework/algorithm/include/lue/framework/algorithm/unary_aggregate_operation.hpp: unary_aggregate_operation'])
p('Material which is routed, split and rounded is conserved up to the rounding error',
  'accu_threshold, accu_fraction, accu_capacity and accu_trigger split the material which arrives in a cell in an amount which flows out and an amount which remains. The amounts are floating point numbers, and each addition, subtraction and multiplication is rounded. Neither amount is ever negative or larger than what is available in the cell, and, apart from a single rounding, the split is the one which is documented for the operation. What flows out of the outlet of a catchment of n cells plus what remains in its cells differs from what entered its cells by at most (1 + u)^(2n - 1) - 1 times the latter, if rounding is monotone and has a relative error of at most u. If something is no-data or outside of the domain in the catchment of a cell, both results are no-data there.',
  'all flow directions, inflows and parameters (amounts may be infinite); all ways of rounding which are monotone and have a limited relative error; all partitionings; all orders of completion of tasks and schedules of the routing',
  'The material which arrives in a cell has a different value for different schedules, and whether it exceeds the threshold may depend on that. A test compares results for a few fields with a tolerance; whether material leaks, and how the error grows with the size of the catchment, does not show in small fields.',
  ['source/framework/algorithm/include/lue/framework/algorithm/definition/accu_threshold.hpp: AccuThreshold', 'source/framework/algorithm/include/lue/framework/algorithm/definition/accu_fraction.hpp: AccuFraction', 'source/framework/algorithm/include/lue/framework/algorithm/definition/accu_capacity.hpp: AccuCapacity', 'source/framework/algorithm/include/lue/framework/algorithm/definition/accu_trigger.hpp: AccuTrigger'])
p('Focal operations on floating point numbers are reproducible, and accurate up to the rounding error',
  'focal_sum, focal_mean, focal_high_pass and convolve give for each cell, to the last bit, the same result for all partitionings and orders in which tasks complete. focal_sum differs from the sum on paper of the n numbers in the cells of the array within reach of the kernel which have a weight by at most (1 + u)^(n - 1) - 1 times the sum of their magnitudes, if a single operation has a relative error of at most u; it is exact if no sum of some of these numbers has to be rounded. Similar limits hold for the mean, for the sum of the weighted numbers, and for twice the number in the cell times the number of neighbours minus the sum of the neighbours. Cells around which there are no numbers become no-data, and, in case of the high pass filter, so do cells which are no-data themselves. Cells outside of the array do not contribute.',
  'all arrays of floating point numbers, kernels, ways of rounding with a limited relative error, partitionings in partitions which are not smaller than the kernel, orders of completion of tasks, and contents of uninitialised memory',
  'A test compares with a tolerance, or with the result of the same code; neither tells whether the error is that of rounding, for all kernels and values, or whether the result at the border of a partition is the same as that inside of one.',
  ['source/framework/algorithm/include/lue/framework/algorithm/definition/focal_sum.hpp: FocalSum', 'source/framework/algorithm/include/lue/framework/algorithm/definition/focal_mean.hpp: FocalMean', 'source/framework/algorithm/include/lue/framework/algorithm/definition/focal_high_pass.hpp: FocalHighPass', 'source/framework/algorithm/include/lue/framework/algorithm/definition/convolve.hpp: Convolve'])
p('The Game of Life of the quick start follows the rules of the Game of Life',
  'The model in the quick start of the manual, which simulates the Game of Life with focal_sum, comparisons, logical operators and where, writes, for each initial generation, exactly the generations which follow it by the rules of the game, file by file: a living cell with two or three living neighbours survives, a dead cell with three living neighbours comes to life, all other cells die, and cells outside of the array are dead. This does not depend on the partitioning, on the number of generations, or on the order in which tasks complete. If some partition has less than 3 rows or columns the model fails before anything is written. In the initial generation, a cell is alive if and only if the random number drawn for it is at most 0.25.',
  'all initial generations, sizes of the world, partitionings, numbers of generations, orders of completion of tasks, contents of uninitialised memory, and random number generators',
  'A test plays a few generations of a small world in a few partitionings; the number of worlds is exponential in the number of cells, and errors show up at the borders of partitions only for some of them.',
  ['document/doc/quick_start/game_of_life.py: initialize_generation, next_generation, GameOfLife', 'source/framework/algorithm/include/lue/framework/algorithm/definition/focal_sum.hpp: FocalSum', 'source/framework/algorithm/include/lue/framework/algorithm/definition/where.hpp: where'])
p('No-data is handled as described in the reference documentation',
  'In the results of focal_minimum, focal_maximum, focal_majority, focal_diversity, focal_sum, focal_mean and convolve, a cell is valid if and only if at least one valid value is found within the neighbourhood of the cell in the input array, as documented. The result of d8_flow_direction is no-data in exactly the cells in which the elevation is no-data. The result of upstream is no-data in exactly the cells in which the flow direction or the material is no-data, or the material in one of the cells which drain into the cell is no-data. Likewise for downstream, given the cell into which the cell drains. The result of downscaling is no-data in exactly the cells which are part of a no-data cell, and the result of open_simplex_noise in exactly the cells in which one of the coordinates is no-data. This does not depend on the partitioning or on the order in which partitions are handled. Exceptions: a sum of valid values which equals the number which marks no-data, or which is too large, is no-data, and contrary to what is documented, the result of focal_high_pass is valid if and only if the value in the cell itself is valid and some other value in the neighbourhood is.',
  'all arrays, no-data patterns, partitionings, kernels, radii, contents of uninitialised memory and orders in which partitions are handled',
  'A test uses a few patterns of no-data values; the number of patterns is exponential in the number of cells, and the cells at the borders of partitions and of the array matter most.',
  ['document/doc/reference/operation/focal_sum.md', 'document/doc/reference/operation/focal_high_pass.md', 'document/doc/reference/operation/d8_flow_direction.md', 'document/doc/reference/operation/upstream.md', 'document/doc/reference/operation/downstream.md', 'document/doc/reference/operation/resample.md', 'document/doc/reference/operation/open_simplex_noise.md', 'source/framework/algorithm/include/lue/framework/algorithm/definition/focal_high_pass.hpp: FocalHighPass'])
p('A model executed for a cutout of the data gives the same results away from the borders of the cutout',
  'Given a program which combines local operations, focal operations, inflow_count, where, branches and loops. The radii of the kernels of the focal operations it calls add up to R, counting each call (the radius of inflow_count is one). When the program is executed for an array, and for a rectangular part of this array, the results are the same in each cell of the part for which all cells of the array which are at most R rows and R columns away are in the part too. This holds for all partitionings of both arrays and all orders in which tasks complete. Also, changing the values in some cells of the input arrays does not change the results in cells which are more than R rows or R columns away from these cells.',
  'all programs with local and focal operations and any number of steps, arrays, cutouts, radii, values of the halo, partitionings and orders of completion of tasks',
  'A test compares a few cutouts for a few operations; a kernel or halo which reaches one cell too far in one partitioning and one position is easily missed.',
  ['source/framework/algorithm/include/lue/framework/algorithm/definition/focal_operation.hpp: focal_operation', 'source/framework/algorithm/include/lue/framework/algorithm/kernel.hpp: Kernel', 'source/framework/algorithm/include/lue/framework/algorithm/definition/binary_local_operation.hpp', 'source/framework/algorithm/include/lue/framework/algorithm/definition/where.hpp'])
p('Routing material only depends on the catchment',
  'Given flow directions, and a rectangular part of them. Material is routed by accu, accu_threshold, accu_fraction, accu_capacity or accu_trigger, for the array and for the part of it. In each cell of which the catchment (the cell and all cells upstream) is contained in the part, and which is not downstream of a cycle, the results are the same, including no-data. The inflow and the parameters only have to be the same in the catchment of the cell: what they are elsewhere does not matter. This holds for all partitionings of both arrays and all orders in which tasks complete.',
  'all flow direction networks, parts of the array, amounts of material, patterns of no-data, partitionings and orders of completion of tasks',
  'A test uses a few catchments; a stream which crosses the borders of the partitions in some specific way, or material which enters from outside of the catchment in some specific schedule, is not seen.',
  ['source/framework/algorithm/include/lue/framework/algorithm/definition/accu.hpp: accu', 'source/framework/algorithm/include/lue/framework/algorithm/definition/accu_threshold.hpp', 'source/framework/algorithm/include/lue/framework/algorithm/definition/accu_fraction.hpp', 'source/framework/algorithm/include/lue/framework/algorithm/definition/accu_capacity.hpp', 'source/framework/algorithm/include/lue/framework/algorithm/definition/accu_trigger.hpp'])
p('The statistic of a zone only depends on the zone',
  'Given an array with zones, an array with values, and a rectangular part of both. In each cell of which the zone is contained in the part, the zonal sum, minimum, maximum, mean, diversity and majority are the same for the arrays and for the part of them. The values only have to be the same in the cells of the zone: what they are in other zones does not matter. This holds for all partitionings of both arrays, all orders in which tasks complete, and all orders in which the statistics per zone are merged.',
  'all arrays with zones and values, parts of these arrays, patterns of no-data, partitionings, orders of completion of tasks and orders of iteration over unordered maps',
  'A test uses a few zones; values of other zones which leak into a zone, for some order in which the results of partitions are merged, are not seen.',
  ['source/framework/algorithm/include/lue/framework/algorithm/definition/zonal_operation.hpp: zonal_operation', 'source/framework/algorithm/include/lue/framework/algorithm/definition/zonal_sum.hpp', 'source/framework/algorithm/include/lue/framework/algorithm/definition/zonal_mean.hpp', 'source/framework/algorithm/include/lue/framework/algorithm/definition/zonal_diversity.hpp'])
open('/verif/properties.jsonl','w').write(''.join(json.dumps(x)+'\n' for x in P))
import os
for x in P:
    for a in x['anchors']:
        f=a.split(':')[0]
        if not os.path.exists('/repo/'+f): print(x['id'],f)
print(len(P))
