{
 "claims": [
  {
   "property": "C01",
   "status": "proved",
   "theorems": [
    "Lue.Decomposition.partitionShapes_succeeds_iff",
    "Lue.Decomposition.partitionShapes_tiles",
    "Lue.Decomposition.extents_sum"
   ],
   "note": "any rank"
  },
  {
   "property": "C02",
   "status": "proved",
   "theorems": [
    "Lue.Index.linear_roundtrip",
    "Lue.Index.idxs_roundtrip",
    "Lue.Index.linear_rowMajor",
    "Lue.Index.linearToShapeIndex_eq"
   ],
   "note": "any rank"
  },
  {
   "property": "C03",
   "status": "proved",
   "theorems": [
    "Lue.Visitor.visitArray_exactly_once_rowMajor",
    "Lue.Visitor.visitArray_nodup"
   ],
   "note": "any rank"
  },
  {
   "property": "C04",
   "status": "proved",
   "theorems": [
    "Lue.Localities.localityIdx_lt",
    "Lue.Localities.localityIdx_mono",
    "Lue.Localities.nrAssigned_balanced",
    "Lue.Localities.nrAssigned_pos_diff",
    "Lue.Localities.instantiate_throws",
    "Lue.Localities.instantiate_each_once"
   ],
   "note": ""
  },
  {
   "property": "C05",
   "status": "proved",
   "theorems": [
    "Lue.Localities.hilbertCurve_visits_all_once",
    "Lue.Localities.hilbert_fuel_mono",
    "Lue.Localities.linearCurve_visits_all_once"
   ],
   "note": "fuel is proved sufficient"
  },
  {
   "property": "C06",
   "status": "proved",
   "theorems": [
    "Lue.FromBuffer.instantiate_spec"
   ],
   "note": ""
  },
  {
   "property": "C07",
   "status": "proved",
   "theorems": [
    "Lue.LocalOp.unary_spec",
    "Lue.LocalOp.binary_spec",
    "Lue.LocalOp.binaryAS_spec",
    "Lue.LocalOp.binarySA_spec",
    "Lue.LocalOp.scalar_spec",
    "Lue.LocalOp.scalar2_spec",
    "Lue.LocalOp.ternary_spec",
    "Lue.LocalOp.where_spec",
    "Lue.LocalOp.where_scalar_spec",
    "Lue.LocalOp.where_scalar_wrong",
    "Lue.LocalOp.where2_spec",
    "Lue.LocalOp.binary_partitioning_independent",
    "Lue.LocalOp.array2_throws",
    "Lue.LocalOp.binary_misaligned"
   ],
   "note": "includes two findings: swapped no-data policies in where overloads, and misaligned partitions passing the compatibility check"
  },
  {
   "property": "C08",
   "status": "proved",
   "theorems": [
    "Lue.Aggregate.aggregateArray_spec",
    "Lue.Aggregate.sum_spec",
    "Lue.Aggregate.sum_collision",
    "Lue.Aggregate.minimum_spec",
    "Lue.Aggregate.maximum_spec",
    "Lue.Aggregate.all_spec",
    "Lue.Aggregate.any_spec",
    "Lue.Aggregate.none_spec"
   ],
   "note": "associative, commutative aggregation; rounding of floating point sums is not modelled"
  },
  {
   "property": "C09",
   "status": "proved",
   "theorems": [
    "Lue.Aggregate.unique_spec"
   ],
   "note": ""
  },
  {
   "property": "C10",
   "status": "proved",
   "theorems": [
    "Lue.Zonal.zonalArray_spec",
    "Lue.Zonal.zonalArrayS_spec",
    "Lue.Zonal.zoneValues_noData",
    "Lue.Zonal.mem_zoneValues",
    "Lue.Zonal.zonal_sum_spec",
    "Lue.Zonal.zonal_area_spec",
    "Lue.Zonal.zonal_minimum_spec",
    "Lue.Zonal.zonal_maximum_spec",
    "Lue.Zonal.zonal_mean_spec",
    "Lue.Zonal.zonal_diversity_spec",
    "Lue.Zonal.zonal_majority_spec"
   ],
   "note": ""
  },
  {
   "property": "C11",
   "status": "proved",
   "theorems": [
    "Lue.UniqueId.uniqueId_spec",
    "Lue.UniqueId.launches_ok"
   ],
   "note": "wrap-around of the ID counter is not modelled"
  },
  {
   "property": "C12",
   "status": "proved",
   "theorems": [
    "Lue.CellIndex.cellIndex_impl",
    "Lue.CellIndex.cellIndex_spec",
    "Lue.CellIndex.cellIndex_wrong"
   ],
   "note": "finding: wrong for non-square partitions"
  },
  {
   "property": "C13",
   "status": "proved",
   "theorems": [
    "Lue.Resample.downscale_impl",
    "Lue.Resample.downscale_spec",
    "Lue.Resample.downscale_wrong",
    "Lue.Resample.downscale_zero",
    "Lue.Resample.downscale_one"
   ],
   "note": "finding: wrong source cells for some partitionings (implementation bug, characterised exactly)"
  },
  {
   "property": "C14",
   "status": "proved",
   "theorems": [
    "Lue.Focal.focal1_spec",
    "Lue.Focal.focal2_spec",
    "Lue.Focal.focal1_throws",
    "Lue.Focal.focal1_partitioning_independent",
    "Lue.Focal.spawn_ok",
    "Lue.Focal.neighbourhood_ok"
   ],
   "note": "nine halo cases, all window reads in bounds, any task order; throws iff a partition is smaller than the kernel radius"
  },
  {
   "property": "C15",
   "status": "proved",
   "theorems": [
    "Lue.FocalStats.boxKernel_spec",
    "Lue.FocalStats.circleKernel_spec",
    "Lue.FocalStats.circle_symmetric",
    "Lue.FocalStats.circle_extremes"
   ],
   "note": "rank 2"
  },
  {
   "property": "C16",
   "status": "proved",
   "theorems": [
    "Lue.FocalStats.focal_sum_spec",
    "Lue.FocalStats.focal_mean_spec",
    "Lue.FocalStats.focal_minimum_spec",
    "Lue.FocalStats.focal_maximum_spec",
    "Lue.FocalStats.focal_majority_spec",
    "Lue.FocalStats.focal_diversity_spec",
    "Lue.FocalStats.focal_min_mean_max",
    "Lue.FocalStats.mem_focalValues",
    "Lue.FocalStats.mem_focalValues_noData",
    "Lue.FocalStats.focal_high_pass_spec",
    "Lue.FocalStats.convolve_spec"
   ],
   "note": "exact arithmetic; finding: focal_mean and focal_high_pass are documented to propagate no-data in focal cells, they do not (C16)"
  },
  {
   "property": "C17",
   "status": "proved",
   "theorems": [
    "Lue.Routing.d8FlowDirection_spec",
    "Lue.Routing.IsD8.lower",
    "Lue.Routing.IsD8.acyclic",
    "Lue.Routing.IsD8.path_ends",
    "Lue.Routing.IsD8.path_ends_in_sink"
   ],
   "note": "exact arithmetic; finding: the halo elevation is numeric_limits::min(), which is positive for floats and makes border cells drain outwards with default policies"
  },
  {
   "property": "C18",
   "status": "proved",
   "theorems": [
    "Lue.InflowCount.inflowCount_spec",
    "Lue.InflowCount.inflowCount_single_row",
    "Lue.InflowCount.inflowCount_single_row_counted_twice",
    "Lue.InflowCount.inflowCount_invalid_network"
   ],
   "note": "partitions of at least 2x2 cells, any order of partition tasks; findings: wrong for partitions of a single row or column"
  },
  {
   "property": "C19",
   "status": "proved",
   "theorems": [
    "Lue.Accu.accu_correct",
    "Lue.Accu.accu_unique",
    "Lue.Accu.accu_yields_iff",
    "Lue.Accu.accu_executes",
    "Lue.Accu.accu_cyclic",
    "Lue.Accu.routed_iff",
    "Lue.Accu.routed_unique",
    "Lue.Router.router_safe",
    "Lue.Router.router_terminates",
    "Lue.Router.router_finishes_iff",
    "Lue.Router.router_result",
    "Lue.Router.router_cyclic"
   ],
   "note": "all interleavings of partition tasks and messages; partitions of at least 2x2 cells; finding: the operation never finishes if a stream which crosses a partition border is on or downstream of a cycle"
  },
  {
   "property": "C20",
   "status": "proved",
   "theorems": [
    "Lue.Accu.accu_correct",
    "Lue.Accu.split_correct",
    "Lue.Accu.split_unique",
    "Lue.Accu.split_yields_iff"
   ],
   "note": ""
  },
  {
   "property": "C21",
   "status": "proved",
   "theorems": [
    "Lue.Accu.accuThreshold_correct",
    "Lue.Accu.accuFraction_correct",
    "Lue.Accu.accuCapacity_correct",
    "Lue.Accu.accuTrigger_correct",
    "Lue.Accu.split_conserves",
    "Lue.Accu.operations_bounds"
   ],
   "note": "exact arithmetic"
  },
  {
   "property": "C22",
   "status": "proved",
   "theorems": [
    "Lue.Streams.upstream_spec",
    "Lue.Streams.downstream_spec",
    "Lue.Streams.upstream_total",
    "Lue.Streams.upstream_downstream_adjoint",
    "Lue.Streams.downstreamDistance_spec"
   ],
   "note": "For all networks (also those with cycles, and with codes which are not a direction), partitionings with partitions of at least 3 x 3 cells (others make the focal operation throw, C14) and orders of the tasks. Material elements are values or no-data; overflow is not modelled. Cells draining out of the array get 0 from downstream (halo value)."
  },
  {
   "property": "C23",
   "status": "proved",
   "theorems": [
    "Lue.Clump.clump_partition_components",
    "Lue.Clump.flood_fill_component"
   ],
   "note": "All partitions of any shape, with and without diagonal connectivity, for every zone value and no-data pattern; the scanline flood fill is modelled with its stack of spans and shown to terminate."
  },
  {
   "property": "C24",
   "status": "proved",
   "theorems": [
    "Lue.Clump.clump_sound",
    "Lue.Clump.clump_components_partial",
    "Lue.Clump.clump_single_partition",
    "Lue.Clump.clump_deterministic",
    "Lue.Clump.clump_incomplete"
   ],
   "note": "Soundness (cells with the same id are in the same component; no-data is preserved) for all arrays, partitionings, connectivities and task orders; the ids do not depend on the order of the tasks. Completeness is proved when the collections of ids left after merging are disjoint, and for a single partition; it is refuted in general (clump_incomplete: an E-shaped zone over several partitions gets two ids, because merging is not transitive)."
  },
  {
   "property": "C25",
   "status": "proved",
   "theorems": [
    "Lue.DecreasingOrder.decreasing_order_safe",
    "Lue.DecreasingOrder.decreasing_order_terminates",
    "Lue.DecreasingOrder.decreasing_order_result",
    "Lue.DecreasingOrder.IsDecreasing.take",
    "Lue.DecreasingOrder.first_n_decreasing_order",
    "Lue.DecreasingOrder.decreasing_order_global",
    "Lue.DecreasingOrder.decreasing_order_overtaken",
    "Lue.DecreasingOrder.example_overtaken",
    "Lue.DecreasingOrder.example_lowest"
   ],
   "note": "All interleavings of tasks and messages, for route_partition() not overtaken by recording. Findings: the sentinel numeric_limits::min() is positive for floating-point values (example_lowest); route_partition() called after the partition is finished throws (example_overtaken); the global overload reads the first element of an empty collection when there are no values."
  },
  {
   "property": "C26",
   "status": "proved",
   "theorems": [
    "Lue.FirstN.first_n_safe",
    "Lue.FirstN.first_n_terminates",
    "Lue.FirstN.first_n_result",
    "Lue.FirstN.first_n_finishes",
    "Lue.FirstN.first_n_once",
    "Lue.FirstN.first_n_overtaken"
   ],
   "note": "All interleavings of tasks and messages. Finding: result_partition() is not ordered with respect to the walk; when the walk finishes a partition first, the promise is satisfied twice (first_n_overtaken)."
  },
  {
   "property": "C27",
   "status": "proved",
   "theorems": [
    "Lue.Serializer.serializer_safe",
    "Lue.Serializer.serializer_order",
    "Lue.Serializer.serializer_predecessors",
    "Lue.Serializer.serializer_complete",
    "Lue.Serializer.serializer_gap",
    "Lue.Serializer.serializer_terminates",
    "Lue.Serializer.serializer_twice"
   ],
   "note": "All orders of requests and completions, all keys. Findings: a generation that is never requested in a process blocks all later ones (serializer_gap), which happens when an array without partitions in that process is written; requesting a generation twice gives an unusable promise (serializer_twice)."
  },
  {
   "property": "C28",
   "status": "proved",
   "theorems": [
    "Lue.Simulate.run_safe",
    "Lue.Simulate.run_order",
    "Lue.Simulate.run_ready_after_called",
    "Lue.Simulate.run_in_flight",
    "Lue.Simulate.run_quiet",
    "Lue.Simulate.run_complete",
    "Lue.Simulate.run_progress",
    "Lue.Simulate.run_not_throttled",
    "Lue.Simulate.run_ready_enabled",
    "Lue.Simulate.run_terminates",
    "Lue.Simulate.run_exceeds"
   ],
   "note": "All numbers of samples, time steps, rate limits and completion orders. Finding: until the first time step is ready, rate_limit + 1 time steps can be in flight (run_exceeds), because the semaphore starts with the first time step as lower limit; run_in_flight proves rate_limit + 1 as a bound, and rate_limit once the first step is ready."
  },
  {
   "property": "C29",
   "status": "proved",
   "theorems": [
    "Lue.LueIO.idxsByLocality_spec",
    "Lue.LueIO.idxsByLocalityAsserts_ok",
    "Lue.LueIO.SerialOrder.isOrder",
    "Lue.LueIO.toLue_stores",
    "Lue.LueIO.toLue_each_cell_once",
    "Lue.LueIO.parallelToLue_stores",
    "Lue.LueIO.Stored.unique",
    "Lue.LueIO.toLue_succeeds_iff",
    "Lue.LueIO.fromLue_represents",
    "Lue.LueIO.fromLue_stride_throws",
    "Lue.LueIO.fromLue_fails_noRoom",
    "Lue.LueIO.fromLue_fails_partitionShape",
    "Lue.LueIO.roundtrip",
    "Lue.LueIO.roundtrip_all",
    "Lue.LueIO.toLue_history",
    "Lue.LueIO.timeSteps_disjoint"
   ],
   "note": "2D arrays, constant and temporal. HDF5 is modelled by what it does with hyperslab selections; any write order, any element-wise interleaving for parallel I/O, any read order over localities."
  },
  {
   "property": "C30",
   "status": "proved",
   "theorems": [
    "Lue.Memory.shared_history",
    "Lue.Memory.shared_noLeak",
    "Lue.Memory.copy_refers",
    "Lue.Memory.write_visible",
    "Lue.Memory.move_refers",
    "Lue.Memory.moveAssign_shared",
    "Lue.Memory.moveAssign_alias",
    "Lue.Memory.exampleHOps_run"
   ],
   "note": "All histories of operations on partition data. Finding: move-assigning to a handle clears the elements of all other handles sharing its buffer; these keep their shape and a dangling span (moveAssign_shared, moveAssign_alias)."
  },
  {
   "property": "C31",
   "status": "proved",
   "theorems": [
    "Lue.Decomposition.defaultPartitionShape_one_thread",
    "Lue.Decomposition.defaultPartitionShape_pos",
    "Lue.Decomposition.defaultPartitionShape_fits",
    "Lue.Decomposition.defaultPartitionShape_unusable",
    "Lue.Decomposition.maxPartitionShape_spec",
    "Lue.Decomposition.maxPartitionShape_divided",
    "Lue.Decomposition.maxPartitionShape_zero_extent"
   ],
   "note": "roots in exact arithmetic; includes refutations of the unrestricted claims"
  },
  {
   "property": "C32",
   "status": "proved",
   "theorems": [
    "Lue.Memory.array_history",
    "Lue.Memory.array_noLeak",
    "Lue.Memory.array_nrElements",
    "Lue.Memory.array_nrElements_le",
    "Lue.Memory.step_others",
    "Lue.Memory.copyConstruct_equal",
    "Lue.Memory.copyAssign_equal",
    "Lue.Memory.move_equal",
    "Lue.Memory.reshape_equal",
    "Lue.Memory.writeAt_distinct",
    "Lue.Memory.assertInvariants_iff",
    "Lue.Memory.assertInvariants_reshape_empty",
    "Lue.Memory.copyAssign_after_remove"
   ],
   "note": "All histories of constructors, copies, moves, assignments, reshape, clear, remove, element writes and destruction. Findings: reshape to an empty shape keeps the buffer (asserted invariants fail); after remove, copy-assignment from an array with the same shape keeps the smaller number of elements."
  },
  {
   "property": "C33",
   "status": "proved",
   "theorems": [
    "Lue.Zonal.reclassify_spec",
    "Lue.Zonal.zonalRandom_spec",
    "Lue.Zonal.zonalRandom_draws",
    "Lue.Zonal.randomTable_draws"
   ],
   "note": ""
  },
  {
   "property": "C34",
   "status": "proved",
   "theorems": [
    "Lue.LueCalls.registerAll_ok",
    "Lue.LueCalls.writes_exclusive",
    "Lue.LueCalls.writes_before",
    "Lue.LueCalls.calls_serialized",
    "Lue.LueCalls.write_excludes_reads",
    "Lue.LueCalls.read_contents",
    "Lue.LueCalls.final_contents",
    "Lue.LueCalls.calls_progress",
    "Lue.LueCalls.calls_terminate",
    "Lue.LueCalls.calls_no_error",
    "Lue.LueCalls.read_overlaps_write",
    "Lue.LueCalls.read_sees_later_write",
    "Lue.LueCalls.gap_deadlock"
   ],
   "note": "Serial I/O, one dataset; the serializers are modelled by what is proved in C27. SafeReads lists circumstances in which reads exclude later writes; outside of it read_overlaps_write refutes the claim (this explains the BUG comment in to_lue.hpp). Progress and absence of failing assertions need every locality involved in a call to be involved in all earlier ones (gap_deadlock otherwise)."
  },
  {
   "property": "C35",
   "status": "proved",
   "theorems": [
    "Lue.ValueOps.add_exact",
    "Lue.ValueOps.subtract_exact",
    "Lue.ValueOps.multiply_exact",
    "Lue.ValueOps.divide_exact",
    "Lue.ValueOps.divide_default_exact",
    "Lue.ValueOps.divide_not_exact",
    "Lue.ValueOps.modulus_exact",
    "Lue.ValueOps.negate_exact",
    "Lue.ValueOps.abs_exact",
    "Lue.ValueOps.cast_exact",
    "Lue.ValueOps.cast_float_exact",
    "Lue.ValueOps.cast_float_not_exact"
   ],
   "note": "All integral types (any number of bits, signed or not), all overloads (array/scalar), any value computed by the processor on overflow. boost::safe_numerics is modelled by what it documents. Floating point arithmetic is not modelled; floating point values are exact rationals, infinities and NaN in the conversion."
  },
  {
   "property": "C36",
   "status": "proved",
   "theorems": [
    "Lue.DataModel.SameShape.history",
    "Lue.DataModel.SameShape.history_read",
    "Lue.DataModel.SameShape.read_past_end",
    "Lue.DataModel.SameShape.write_past_end",
    "Lue.DataModel.SameShape.writeAt_readAt",
    "Lue.DataModel.DifferentShape.history_read",
    "Lue.DataModel.DifferentShape.history_nr",
    "Lue.DataModel.DifferentShape.history_expand",
    "Lue.DataModel.DifferentShape.write_other",
    "Lue.DataModel.DifferentShape.expandFlat_rank2",
    "Lue.DataModel.DifferentShape.expandFlat_wrong",
    "Lue.DataModel.DifferentShape.expandFlat_rank1",
    "Lue.DataModel.DifferentShapeConstantShape.history_read",
    "Lue.DataModel.DifferentShapeConstantShape.history_nr",
    "Lue.DataModel.name_inj",
    "Lue.DataModel.two_handles_lose_count",
    "Lue.DataModel.SameShapeVariableShape.expand_spec",
    "Lue.DataModel.DifferentShapeVariableShape.expand_spec",
    "Lue.DataModel.DifferentShapeVariableShape.failed_expand_blocks"
   ],
   "note": "All shapes, ids and histories; HDF5 is modelled by what it does with extents, hyperslab selections, links and attributes. Findings: expandFlat_wrong, expandFlat_rank1 (flat array of extents works for rank 2 only), two_handles_lose_count, failed_expand_blocks and lost items in the count."
  },
  {
   "property": "C37",
   "status": "proved",
   "theorems": [
    "Lue.Chunk.chunk_small",
    "Lue.Chunk.chunk_large",
    "Lue.Chunk.chunk_rank1",
    "Lue.Chunk.chunk_rank2",
    "Lue.Chunk.chunk_empty_undefined",
    "Lue.Chunk.chunk_undefined",
    "Lue.Chunk.chunk_too_large",
    "Lue.Chunk.chunk_too_small"
   ],
   "note": "Real numbers instead of floating point numbers. Any order of dimensions with equal extents (unstable sort)."
  },
  {
   "property": "C38",
   "status": "proved",
   "theorems": [
    "Lue.KinematicWave.kinematic_wave_correct",
    "Lue.KinematicWave.kinematic_wave_unique",
    "Lue.KinematicWave.kinematic_wave_yields_iff",
    "Lue.KinematicWave.kinematic_wave_water_balance",
    "Lue.KinematicWave.balance_existsUnique",
    "Lue.KinematicWave.fq_eq_zero_iff",
    "Lue.KinematicWave.dfq_correct",
    "Lue.KinematicWave.dfq_bound",
    "Lue.KinematicWave.guess_pos",
    "Lue.KinematicWave.guess_divisor_pos",
    "Lue.KinematicWave.residual_bound",
    "Lue.KinematicWave.balance_mono",
    "Lue.KinematicWave.newDischarge_balance",
    "Lue.KinematicWave.newDischarge_extraction",
    "Lue.KinematicWave.newDischarge_nonneg",
    "Lue.KinematicWave.newDischarge_dry",
    "Lue.KinematicWave.value_policies_no_extraction"
   ],
   "note": "Real numbers instead of floating point numbers; boost newton_raphson_iterate is a parameter: the water balance assumes it finds the (unique) root, residual_bound bounds the error if it stops early. Finding: value policies turn extraction into no-data."
  },
  {
   "property": "C39",
   "status": "proved",
   "theorems": [
    "Lue.Terrain.gradients_spec",
    "Lue.Terrain.slope_spec",
    "Lue.Terrain.plane_gradients",
    "Lue.Terrain.slope_border",
    "Lue.Terrain.aspect_spec",
    "Lue.Terrain.aspectAngle_range",
    "Lue.Terrain.aspectAngle_axis",
    "Lue.Terrain.aspectAngle_swapped",
    "Lue.Terrain.aspectAngle_correct_iff",
    "Lue.Terrain.aspect_plane_east"
   ],
   "note": "Real numbers and NaN instead of floating point numbers. Findings: slope_border, aspectAngle_correct_iff, aspect_plane_east."
  },
  {
   "property": "C40",
   "status": "proved",
   "theorems": [
    "Lue.GdalIO.hyperslab_make",
    "Lue.GdalIO.isContainedBy_iff",
    "Lue.GdalIO.fromGdal_reads",
    "Lue.GdalIO.fromGdalHyperslab_reads",
    "Lue.GdalIO.fromGdalHyperslab_refused",
    "Lue.GdalIO.reads_noData_iff",
    "Lue.GdalIO.toGdal_order",
    "Lue.GdalIO.toGdal_writes",
    "Lue.GdalIO.gdal_round_trip",
    "Lue.GdalIO.toGdal_clone_refused",
    "Lue.GdalIO.createRaster_wraps",
    "Lue.GdalIO.integral_lawful",
    "Lue.GdalIO.floating_lawful",
    "Lue.Create.createPerLocality_ok",
    "Lue.Create.createEach_ok",
    "Lue.Create.createPerLocality_throws"
   ],
   "note": "GDAL is modelled by what it documents for reading and writing blocks of a single band. Findings: toGdal_clone_refused, createRaster_wraps."
  },
  {
   "property": "C41",
   "status": "proved",
   "theorems": [
    "Lue.Position.meshGrid_correct",
    "Lue.Position.arrayLike_correct",
    "Lue.Position.arrayPartitionId_correct",
    "Lue.Position.elementPerPartition_correct",
    "Lue.Position.partitionCountUnique_correct",
    "Lue.Position.partitionCountUnique_values",
    "Lue.Position.range_values",
    "Lue.Position.range_correct",
    "Lue.Position.range_not_unique"
   ],
   "note": "2D, exact arithmetic. Findings: range_not_unique (range assigns the same number to different cells), partitionCountUnique_values (wrong offset for enlarged last partitions)."
  },
  {
   "property": "C42",
   "status": "proved",
   "theorems": [
    "Lue.PyArray.getItem_correct",
    "Lue.PyArray.getItem_invalid",
    "Lue.PyArray.getItem_shape",
    "Lue.PyArray.selected_inExtent",
    "Lue.PyArray.setItemArray_correct",
    "Lue.PyArray.getItem_setItem",
    "Lue.PyArray.setItemArray_invalid",
    "Lue.PyArray.setItemArray_wrong_number",
    "Lue.PyArray.setItemArray_int_too_few",
    "Lue.PyArray.setItemArray_int_too_many",
    "Lue.PyArray.setItemNumber_correct",
    "Lue.PyArray.setItemNumber_step_throws",
    "Lue.PyArray.select_negative",
    "Lue.PyArray.sliceCompute_reversed",
    "Lue.PyArray.getStrings_elements",
    "Lue.PyArray.unicodeStrings_eq",
    "Lue.PyArray.encodedStrings_eq",
    "Lue.PyArray.setStrings_encoded",
    "Lue.PyArray.setStrings_slice",
    "Lue.PyArray.getStrings_slice"
   ],
   "note": "Arrays of any rank; the selection is specified as the combinations of positions picked per dimension. HDF5 is modelled by what it does with hyperslabs; strides obtained from negative steps are a parameter. Findings: filling with a step throws, an integer key with too few values reads past the end, reading strings gives empty strings, Unicode strings are all stored as the first one, slices of strings read or free past the end."
  },
  {
   "property": "C43",
   "status": "proved",
   "theorems": [
    "Lue.Integrate.integrate_safe",
    "Lue.Integrate.integrate_terminates",
    "Lue.Integrate.integrate_finishes",
    "Lue.Integrate.integrate_once",
    "Lue.Integrate.integrate_sum",
    "Lue.Integrate.integrate_no_data",
    "Lue.Integrate.integrate_overtaken",
    "Lue.Walk.walk_safe",
    "Lue.Walk.walk_terminates",
    "Lue.Walk.walk_finishes",
    "Lue.Walk.walk_once",
    "Lue.Walk.walk_result",
    "Lue.Walk.walk_overtaken"
   ],
   "note": "The protocol is proved correct once for any algorithm visiting the cells of fragments (Walk), with integrate as an instance. Nothing is assumed about the addition of elements. Routes are well formed (as produced by decreasing_order, C25) and visit a cell once at most; integrand and route have the same partitions (not checked by the code). Finding: integrate_overtaken."
  },
  {
   "property": "C44",
   "status": "proved",
   "theorems": [
    "Lue.Allocate.allocate_safe",
    "Lue.Allocate.allocate_terminates",
    "Lue.Allocate.allocate_finishes",
    "Lue.Allocate.allocate_nothing",
    "Lue.Allocate.allocate_grass",
    "Lue.Allocate.allocate_no_data",
    "Lue.Allocate.allocate_productions"
   ],
   "note": "Rational numbers instead of floating point numbers; at least one crop, all routes are zones, input arrays have the same partitions as the routes (none of these is checked by the code). Findings: allocate_nothing, allocate_grass, allocate_productions."
  },
  {
   "property": "C45",
   "status": "proved",
   "theorems": [
    "Lue.Identifier.identifier_open_iff_named",
    "Lue.Identifier.identifier_is_valid",
    "Lue.Identifier.identifier_closed_once",
    "Lue.Identifier.identifier_no_leak",
    "Lue.Identifier.identifier_closed_when_last_name_disappears"
   ],
   "note": "HDF5 is modelled by its documented reference counts (H5Iget_ref, H5Iinc_ref, H5Iis_valid, close). One thread."
  },
  {
   "property": "C46",
   "status": "proved",
   "theorems": [
    "Lue.Validate.validate_reports_no_errors_iff",
    "Lue.Validate.assertIsValid_iff",
    "Lue.Validate.assertIsValid_strict",
    "Lue.Validate.active_sets_partition",
    "Lue.Validate.different_objects_eq",
    "Lue.Validate.collection_sets_singleton",
    "Lue.Validate.validate_in_bounds",
    "Lue.Validate.validate_out_of_bounds",
    "Lue.Validate.objects_outside_sets_accepted",
    "Lue.Validate.shared_object_array_accepted",
    "Lue.Validate.time_grid_values_not_validated"
   ],
   "note": "A dataset is modelled by the numbers and identifiers the validation reads from it. Findings: validate_out_of_bounds, objects_outside_sets_accepted, shared_object_array_accepted, time_grid_values_not_validated."
  },
  {
   "property": "C47",
   "status": "proved",
   "theorems": [
    "Lue.Numpy.fromNumpy_holds",
    "Lue.Numpy.fromNumpy_default",
    "Lue.Numpy.fromNumpy_throws",
    "Lue.Numpy.toNumpy_exports",
    "Lue.Numpy.numpy_round_trip",
    "Lue.Numpy.numpy_round_trip_noData",
    "Lue.Numpy.array_round_trip",
    "Lue.Numpy.selectElement_iff",
    "Lue.Numpy.createArray_holds",
    "Lue.Numpy.createArray_refused"
   ],
   "note": "Arrays of rank 2; NumPy arrays are contiguous and row-major. Finding: exporting the result of partition_count_unique (C41) exposes uninitialised memory if the last partition is enlarged."
  },
  {
   "property": "C48",
   "status": "proved",
   "theorems": [
    "Lue.PyOps.binary_correct",
    "Lue.PyOps.mod_number_scalar",
    "Lue.PyOps.binary_unsupported",
    "Lue.PyOps.unary_correct",
    "Lue.PyOps.unary_unsupported",
    "Lue.PyOps.eval_correct",
    "Lue.PyOps.eval_deterministic",
    "Lue.PyOps.chain_raises",
    "Lue.PyOps.intLib_mirrored"
   ],
   "note": "The overload tables of both classes, pybind11's overload resolution and Python's evaluation of operators are modelled; the operations called are those of C07, with policies and functors as parameters which have to be mirrored (x < y iff y > x, symmetric logical operators). Finding: Scalar.__rmod__ has its arguments swapped (mod_number_scalar)."
  },
  {
   "property": "C49",
   "status": "proved",
   "theorems": [
    "Lue.RasterView.views_refine",
    "Lue.RasterView.layer_read_back",
    "Lue.RasterView.layer_listed",
    "Lue.RasterView.create_existing",
    "Lue.RasterView.contains_iff",
    "Lue.RasterView.open_layers"
   ],
   "note": "Simulation between files (phenomena, property sets, properties, soft links, value groups) and rasters, by induction on histories. Properties that are not layers may link to the grids of other rasters, or to the own grid with another discretization type. Files which were written by other software: contains_iff and open_layers hold for all files."
  },
  {
   "property": "C50",
   "status": "partial",
   "theorems": [
    "Lue.GdalBlocks.compareRasters_iff_partial",
    "Lue.GdalBlocks.compareRasters_metadata",
    "Lue.GdalBlocks.compareRasters_missing",
    "Lue.GdalBlocks.strips_not_compared",
    "Lue.GdalBlocks.strips_undefined",
    "Lue.GdalBlocks.larger_blocks_overflow"
   ],
   "note": "Proved for rasters stored in full blocks, as many in each direction (such as a single block), in both rasters the same layout; metadata for all rasters. Other layouts: refuted, for all rasters stored in strips (strips_not_compared, strips_undefined), and by examples for blocks with padding. The coordinates passed to shape_in_valid_cells are swapped."
  },
  {
   "property": "C51",
   "status": "partial",
   "theorems": [
    "Lue.Translate.import_ok_partial",
    "Lue.Translate.export_ok_partial",
    "Lue.Translate.roundtrip_partial",
    "Lue.Translate.import_contents",
    "Lue.Translate.export_contents",
    "Lue.Translate.import_strips_lost",
    "Lue.Translate.import_strips_fails",
    "Lue.Translate.export_strips_lost"
   ],
   "note": "Proved for rasters stored as a single block. For other layouts refuted: exact contents of the layers if there are at most 10 blocks in each direction (import_contents), cells lost for rasters in at most 10 strips, failure for more strips. Coordinates in a linearly ordered field."
  },
  {
   "property": "C52",
   "status": "proved",
   "theorems": [
    "Lue.PyIO.parse_pathname",
    "Lue.PyIO.parse_iff",
    "Lue.PyIO.parse_names",
    "Lue.PyIO.write_spec",
    "Lue.PyIO.write_succeeds_iff",
    "Lue.PyIO.raster_unchanged",
    "Lue.PyIO.read_spec",
    "Lue.PyIO.read_succeeds_only",
    "Lue.PyIO.write_then_read",
    "Lue.PyIO.readSubset_spec",
    "Lue.PyIO.readSubset_succeeds_only",
    "Lue.PyIO.readSubset_zero",
    "Lue.PyIO.readSubset_default_one_thread",
    "Lue.PyIO.dispatch_iff",
    "Lue.PyIO.write_fails_halfway"
   ],
   "note": "On top of the models of raster views (C49) and of the I/O of partitions (C29). Findings: an empty subset reads the whole raster, the default partition shape of a subset is that of the whole raster, writing a too large array writes part of it, a smaller array is written to the first rows and columns."
  },
  {
   "property": "C53",
   "status": "proved",
   "theorems": [
    "Lue.Pcraster.spatial_correct",
    "Lue.Pcraster.ifthen_correct",
    "Lue.Pcraster.ifthenelse_correct",
    "Lue.Pcraster.ifthenelse_refused",
    "Lue.Pcraster.defined_correct",
    "Lue.Pcraster.cover_correct",
    "Lue.Pcraster.max_correct",
    "Lue.Pcraster.min_correct",
    "Lue.Pcraster.extreme_single",
    "Lue.Pcraster.boolean_correct",
    "Lue.Pcraster.boolean_number",
    "Lue.Pcraster.conversions_correct",
    "Lue.Pcraster.conversions_number",
    "Lue.Pcraster.uniqueid_correct",
    "Lue.Pcraster.xcoordinate_correct",
    "Lue.Pcraster.ycoordinate_correct",
    "Lue.Pcraster.translateWindowLength_iff",
    "Lue.Pcraster.catchmenttotal_zero"
   ],
   "note": "On top of C07, C11, C12, C20, C47 and C48. Coordinates in exact arithmetic, and for partitionings for which cell_index is right (C12). Findings: catchmenttotal is 0 everywhere; ifthenelse refuses a number of another type than the elements of the other expression; max(a, 0, 1) fails for floating point arrays."
  },
  {
   "property": "C54",
   "status": "proved",
   "theorems": [
    "Lue.Calculate.calculate_correct",
    "Lue.Calculate.calculate_fails",
    "Lue.Calculate.calculate_refused",
    "Lue.Calculate.statement_parsed",
    "Lue.Calculate.expr_correct",
    "Lue.Calculate.hasExtension_iff",
    "Lue.Calculate.inputPath_iff",
    "Lue.Calculate.outputPath_iff",
    "Lue.Calculate.variableNames_ok",
    "Lue.Calculate.freshIndex_ends",
    "Lue.Calculate.suffixed_identifier",
    "Lue.Calculate.clone_not_first",
    "Lue.Calculate.attribute_fails",
    "Lue.Calculate.overwriting_input",
    "Lue.Calculate.quoted_output"
   ],
   "note": "For paths without quotes and backslashes, of which the name of the file up to the first dot can be part of an identifier, outputs which are not also inputs, and expressions without lambda expressions, comprehensions and formatted strings. Python, the file system, from_gdal and to_gdal are parameters. Findings: the clone is not the first raster of the expression; an output which is also an input is created while it is being read; quoted outputs are refused."
  },
  {
   "property": "C55",
   "status": "proved",
   "theorems": [
    "Lue.PcrFramework.dynamic_run",
    "Lue.PcrFramework.static_run",
    "Lue.PcrFramework.dynamic_accepted",
    "Lue.PcrFramework.monteCarlo_run",
    "Lue.PcrFramework.postmcloop_never",
    "Lue.PcrFramework.monteCarlo_static",
    "Lue.PcrFramework.printed_runs",
    "Lue.PcrFramework.directories_created",
    "Lue.PcrFramework.generateNameT_iff",
    "Lue.PcrFramework.generateNameT_refused",
    "Lue.PcrFramework.generateNameT_inj",
    "Lue.PcrFramework.generateNameST_inj",
    "Lue.PcrFramework.generateNameST_absolute",
    "Lue.PcrFramework.deterministic_reachable"
   ],
   "note": "Uses the model of run_deterministic and run_stochastic of C28. Findings: premcloop is called before and after each sample and postmcloop is never called; a Monte Carlo simulation of a static model fails; the current time step is not reset between samples; with an absolute name all samples use the same file."
  },
  {
   "property": "C56",
   "status": "proved",
   "theorems": [
    "Lue.TimeInput.load_series",
    "Lue.TimeInput.lookupTable_ok",
    "Lue.TimeInput.timeinput_number",
    "Lue.TimeInput.timeinput_array",
    "Lue.TimeInput.timeinput_beyond",
    "Lue.TimeInput.cacheAfter_get",
    "Lue.TimeInput.timeinput_history",
    "Lue.TimeInput.timeinput_first",
    "Lue.TimeInput.timestep_zero",
    "Lue.TimeInput.unnamed_column",
    "Lue.TimeInput.row_by_position",
    "Lue.TimeInput.example_series"
   ],
   "note": "Conversion of text to numbers is a parameter. Uses reclassify of C10. Findings: for time step 0 the last row is used; blank names of columns shift the rows; rows are selected by position, not by time; changes to a file are ignored."
  },
  {
   "property": "C57",
   "status": "proved",
   "theorems": [
    "Lue.Config.list_read",
    "Lue.Config.list_round_trip",
    "Lue.Config.castList_iff",
    "Lue.Config.castList_thrown",
    "Lue.Config.shape_iff",
    "Lue.Config.toSigned_iff",
    "Lue.Config.toSigned_digits",
    "Lue.Config.toUnsigned_digits",
    "Lue.Config.toUnsigned_negative",
    "Lue.Config.required_iff",
    "Lue.Config.optional_spec",
    "Lue.Config.applicationSection_spec",
    "Lue.Config.sign_lost",
    "Lue.Config.values_dropped",
    "Lue.Config.reads_unique"
   ],
   "note": "The regular expressions are modelled with greedy matching and backtracking; boost::lexical_cast and the configuration of HPX are described in the model. castList_iff characterises all texts which are accepted. Findings: the search is not anchored, so a minus sign in a list is dropped (the number becomes positive), as are values in front of a missing comma and the integral part of a number with a decimal point; negative numbers are accepted for unsigned entries."
  },
  {
   "property": "C58",
   "status": "proved",
   "theorems": [
    "Lue.FloatOps.sqrt_computes",
    "Lue.FloatOps.log_computes",
    "Lue.FloatOps.log10_computes",
    "Lue.FloatOps.log_zero",
    "Lue.FloatOps.acos_computes",
    "Lue.FloatOps.asin_computes",
    "Lue.FloatOps.atan_computes",
    "Lue.FloatOps.sin_computes",
    "Lue.FloatOps.cos_computes",
    "Lue.FloatOps.tan_computes",
    "Lue.FloatOps.exp_computes",
    "Lue.FloatOps.abs_computes",
    "Lue.FloatOps.negate_computes",
    "Lue.FloatOps.floor_computes",
    "Lue.FloatOps.ceil_computes",
    "Lue.FloatOps.trunc_computes",
    "Lue.FloatOps.round_computes",
    "Lue.FloatOps.add_computes",
    "Lue.FloatOps.subtract_computes",
    "Lue.FloatOps.multiply_computes",
    "Lue.FloatOps.divide_computes",
    "Lue.FloatOps.modulus_computes",
    "Lue.FloatOps.pow_computes",
    "Lue.FloatOps.pow_zero_negative",
    "Lue.FloatOps.pow_overflow",
    "Lue.FloatOps.noData_iff",
    "Lue.FloatOps.noData_iff2",
    "Lue.FloatOps.bounded",
    "Lue.FloatOps.compare_spec",
    "Lue.FloatOps.logic_spec",
    "Lue.FloatOps.not_spec",
    "Lue.FloatOps.described",
    "Lue.FloatOps.closeTo_asymmetric"
   ],
   "note": "Floating point values are real numbers, infinities and NaN; how results are rounded is a parameter. Arguments for which the code does not satisfy the property are excluded (zero in case of log and log10, powers of zero with negative exponents and powers which are too large), and theorems show that the result is infinite in these cases."
  },
  {
   "property": "C59",
   "status": "proved",
   "theorems": [
    "Lue.JsonImport.import_spec",
    "Lue.JsonImport.addSame_iff",
    "Lue.JsonImport.addTracker_spec",
    "Lue.JsonImport.addLocation_spec",
    "Lue.JsonImport.clock_kept",
    "Lue.JsonImport.existing_space_refused",
    "Lue.JsonImport.other_clock_refused",
    "Lue.JsonImport.no_clock_undefined",
    "Lue.JsonImport.objectIndex_overwritten",
    "Lue.JsonImport.box_not_south",
    "Lue.JsonImport.datatype_ignored",
    "Lue.JsonImport.inline_ignored",
    "Lue.JsonImport.values_lost"
   ],
   "note": "For documents which are consistent (Doc.Fits): the shapes listed for a property are those of the stored arrays, active sets start at the first ID, and features for which the code is wrong are not used. What happens otherwise is stated by separate theorems (findings). The index of active objects is not part of the claim, it is overwritten."
  },
  {
   "property": "C60",
   "status": "proved",
   "theorems": [
    "Lue.Runtime.between_calls",
    "Lue.Runtime.events_eq",
    "Lue.Runtime.events_prefix",
    "Lue.Runtime.no_fault",
    "Lue.Runtime.no_deadlock",
    "Lue.Runtime.bounded",
    "Lue.Runtime.completes",
    "Lue.Runtime.stopped",
    "Lue.Runtime.script_stops",
    "Lue.Runtime.scope_runs",
    "Lue.Runtime.scope_raises",
    "Lue.Runtime.sequential_start",
    "Lue.Runtime.spurious_finalizes",
    "Lue.Runtime.concurrent_start"
   ],
   "note": "Without spurious wakeups of the task waiting for the destructor, for which the code is wrong (spurious_finalizes, finding), and for calls by a single thread (concurrent_start, finding). Absence of faults and deadlocks and boundedness hold with spurious wakeups as well."
  },
  {
   "property": "C61",
   "status": "proved",
   "theorems": [
    "Lue.Environment.expand_pieces",
    "Lue.Environment.expand_plain",
    "Lue.Environment.value_searched",
    "Lue.Environment.joined_searched"
   ],
   "note": "For texts and values in which dollar signs are only used for references. Otherwise values are searched for references depending on their position (findings)."
  },
  {
   "property": "C62",
   "status": "proved",
   "theorems": [
    "Lue.FieldApi.never_ambiguous",
    "Lue.FieldApi.api1_correct",
    "Lue.FieldApi.api1_unsupported",
    "Lue.FieldApi.api2_correct",
    "Lue.FieldApi.api2_unsupported",
    "Lue.FieldApi.api3_correct",
    "Lue.FieldApi.api3_unsupported",
    "Lue.FieldApi.eval_correct",
    "Lue.FieldApi.means_total",
    "Lue.FieldApi.ccall_result",
    "Lue.FieldApi.handle_stable",
    "Lue.FieldApi.destruct_ok",
    "Lue.FieldApi.no_leak",
    "Lue.FieldApi.elementType_iff",
    "Lue.FieldApi.createScalar_exact",
    "Lue.FieldApi.createScalar_rounds",
    "Lue.FieldApi.createScalar_undefined"
   ],
   "note": "Local operations, operators, and the C functions for these. Creating scalars in Python for integral numbers up to 2^53 (2^24 for 32 bit floating point elements): larger ones are rounded, and numbers that do not fit are not detected (findings)."
  },
  {
   "property": "C63",
   "status": "proved",
   "theorems": [
    "Lue.Scalability.pool_sizes",
    "Lue.Scalability.pool_accepts",
    "Lue.Scalability.pool_roundtrip",
    "Lue.Scalability.benchmark_roundtrip",
    "Lue.Scalability.script_runs",
    "Lue.Scalability.script_ok",
    "Lue.Scalability.import_ok",
    "Lue.Scalability.import_rows",
    "Lue.Scalability.strong_scaling",
    "Lue.Scalability.weak_scaling",
    "Lue.Scalability.no_single_worker",
    "Lue.Scalability.sizes_range",
    "Lue.Scalability.shape_size_le",
    "Lue.Scalability.first_shape_square",
    "Lue.Scalability.first_shape_other"
   ],
   "note": "Durations are rational numbers and shapes are computed with real numbers: rounding of floating point numbers is not modelled. Findings: results of experiments without a run with a single worker can not be post-processed (no_single_worker); the first shape of a range of shapes is not the smallest shape passed in, unless its extents are equal (first_shape_other)."
  },
  {
   "property": "C64",
   "status": "proved",
   "theorems": [
    "Lue.Random.uniformArray_spec",
    "Lue.Random.normalArray_spec",
    "Lue.Random.normalArray_total",
    "Lue.Random.uniformArray_undefined",
    "Lue.Random.uniformArray_order",
    "Lue.Random.randomScalar_spec",
    "Lue.Random.randomScalar_undefined",
    "Lue.Random.randomShape_spec",
    "Lue.Random.uniformInt_spec",
    "Lue.Random.uniformReal_spec",
    "Lue.Random.normal_spec",
    "Lue.Random.normal_not_verified",
    "Lue.Random.randomShape_undefined",
    "Lue.Random.uniform_nan",
    "Lue.Random.uniform_noData",
    "Lue.Random.uniformElement_iff",
    "Lue.Random.normalElement_iff",
    "Lue.Random.randomPy_spec",
    "Lue.Random.randomPy_refused",
    "Lue.Random.uniformOverloads_iff",
    "Lue.Random.uniformField_spec",
    "Lue.Random.uniformField_refused",
    "Lue.Random.noiseArray_spec",
    "Lue.Random.noise_mixes",
    "Lue.Random.noise_outOfBounds"
   ],
   "note": "The distributions of the standard library are parameters: what is proved is that what they promise for a single draw holds for all cells. Nothing is claimed about statistics. Findings: unusable arguments (min > max; stddev <= 0 when creating a scalar or given a shape) are not verified and result in undefined behaviour; given a shape, no-data arguments are used as if they are normal values; open_simplex_noise does not verify that its arguments are partitioned in the same way: results then mix cells, or memory outside of partitions is read."
  },
  {
   "property": "C65",
   "status": "proved",
   "theorems": [
    "Lue.KernelPy.kernel_contiguous",
    "Lue.KernelPy.kernel_iff",
    "Lue.KernelPy.kernel_fortran",
    "Lue.KernelPy.kernel_refused",
    "Lue.KernelPy.resolve_iff",
    "Lue.KernelPy.focalPy_eq",
    "Lue.KernelPy.focalSumPy_spec",
    "Lue.KernelPy.focalMeanPy_spec",
    "Lue.KernelPy.focalMinimumPy_spec",
    "Lue.KernelPy.focalMaximumPy_spec",
    "Lue.KernelPy.focalMajorityPy_spec",
    "Lue.KernelPy.focalDiversityPy_spec",
    "Lue.KernelPy.focalHighPassPy_spec",
    "Lue.KernelPy.convolvePy_spec",
    "Lue.KernelPy.Same.operations",
    "Lue.KernelPy.Same.convolve",
    "Lue.KernelPy.even_kernel",
    "Lue.KernelPy.empty_kernel",
    "Lue.KernelPy.transposed_kernel",
    "Lue.KernelPy.flipped_kernel",
    "Lue.KernelPy.expandPy_spec",
    "Lue.KernelPy.expandPy_refused",
    "Lue.KernelPy.expandPy_strided",
    "Lue.KernelPy.expand_everyOther"
   ],
   "note": "Findings: strides are ignored. The weights are right if and only if the NumPy array is stored row by row (kernel_iff): a transposed view has no effect (transposed_kernel), arrays in Fortran order are transposed (kernel_fortran), flipped views result in reading outside of the array (flipped_kernel), and slices of ids result in object arrays for other ids (expand_everyOther). In release builds, the last row and column of kernels with an even extent are ignored (even_kernel), and memory outside of empty kernels is read (empty_kernel)."
  },
  {
   "property": "C66",
   "status": "proved",
   "theorems": [
    "Lue.Shapefile.selection_iff",
    "Lue.Shapefile.selects_unique",
    "Lue.Shapefile.export_points",
    "Lue.Shapefile.located_fst",
    "Lue.Shapefile.located_all",
    "Lue.Shapefile.layerName_inj",
    "Lue.Shapefile.export_boxes",
    "Lue.Shapefile.refuses_items",
    "Lue.Shapefile.refuses_static",
    "Lue.Shapefile.refuses_time",
    "Lue.Shapefile.refuses_rank",
    "Lue.Shapefile.refuses_missing",
    "Lue.Shapefile.directory_ignored",
    "Lue.Shapefile.first_layer_extra",
    "Lue.Shapefile.no_moments",
    "Lue.Shapefile.no_time_domain",
    "Lue.Shapefile.boxes_overflow"
   ],
   "note": "For points, the first set must start at the first active object: validation (C46) does not require that, and if it does not then the first layer contains extra points (first_layer_extra). Findings: the directory in the name of the output is ignored for points (directory_ignored); a valid property set without moments, or mobile points without time domain, is undefined behaviour (no_moments, no_time_domain); the rank of boxes is not verified: memory is overwritten if it is larger than 2 (boxes_overflow)."
  },
  {
   "property": "C67",
   "status": "proved",
   "theorems": [
    "Lue.AccuInfo.info_safe",
    "Lue.AccuInfo.info_yields_iff",
    "Lue.AccuInfo.info_result",
    "Lue.AccuInfo.Allowed.unique",
    "Lue.AccuInfo.Allowed.class",
    "Lue.AccuInfo.info_unique",
    "Lue.AccuInfo.single_partition"
   ],
   "note": "Cells on or downstream of a cycle are not part of the claim. Findings: the class of an input cell in which also a stream arrives that entered the partition elsewhere depends on the schedule (examples with two schedules: sink or partition input cell); a ridge that is also a sink or output cell is classified as ridge, an input cell that is a sink as input cell; no cell is ever classified as a confluence, although the class exists."
  },
  {
   "property": "C68",
   "status": "proved",
   "theorems": [
    "Lue.PartitionIO.construct_ok_iff",
    "Lue.PartitionIO.addOutputCell_ok_iff",
    "Lue.PartitionIO.removeInputCell_ok_iff",
    "Lue.PartitionIO.drain_ok_iff",
    "Lue.PartitionIO.drain_spec",
    "Lue.PartitionIO.partitionOffsets_spec",
    "Lue.PartitionIO.partitionOffsets_neighbour",
    "Lue.PartitionIO.partitionOffsetCounts_spec",
    "Lue.PartitionIO.drain_partitionOffsets",
    "Lue.PartitionIO.drain_all",
    "Lue.PartitionIO.history",
    "Lue.PartitionIO.history_drained"
   ],
   "note": "Methods are atomic. The order of the keys of maps is not modelled, nor are serialization and migration. Without assertions, misuse goes unnoticed: adding an output cell twice loses the second value, removing an input cell twice is undefined behaviour."
  },
  {
   "property": "C69",
   "status": "proved",
   "theorems": [
    "Lue.Structure.dataset_structure",
    "Lue.Structure.dataset_never_broken",
    "Lue.Structure.time_discretization_found",
    "Lue.Structure.space_discretization_found",
    "Lue.Structure.presence_discretization_found",
    "Lue.Structure.property_names_unique",
    "Lue.Structure.unstorable_breaks_dataset"
   ],
   "note": "For datasets whose calls do not run into the limits of the storage (AllStorable): the origin of an epoch is not the empty string, and a domain is shared through at most 16 property-sets (the limit of HDF5). unstorable_breaks_dataset proves that the condition is needed: outside it, a failing call leaves a file that can no longer be opened. The contents of value arrays are the subject of C36."
  },
  {
   "property": "C70",
   "status": "proved",
   "theorems": [
    "Lue.Channels.received_from_neighbour",
    "Lue.Channels.exchange_with_neighbours",
    "Lue.Channels.ended_complete",
    "Lue.Channels.channels_to_neighbours",
    "Lue.Channels.register_succeeds",
    "Lue.Channels.unregister_own",
    "Lue.Channels.ready_possible",
    "Lue.Channels.delivery_possible",
    "Lue.Channels.send_possible",
    "Lue.Channels.channels_not_shared"
   ],
   "note": "The operations are called by one thread (the counter of invocations is not atomic); what happens otherwise is shown by an example. HPX channels and AGAS are modelled by their contract."
  },
  {
   "property": "C71",
   "status": "proved",
   "theorems": [
    "Lue.Dot.export_depicts_dataset",
    "Lue.Dot.graph_depicts",
    "Lue.Dot.readDot_all",
    "Lue.Dot.dataset_stmts"
   ],
   "note": "Names of phenomena, property-sets, properties and universes must not contain <, > or &, as these are not escaped (examples show what happens otherwise). Addresses of different objects in the file are different."
  },
  {
   "property": "C72",
   "status": "proved",
   "theorems": [
    "Lue.Wire.data_arrives",
    "Lue.Wire.data_written",
    "Lue.Wire.array_arrives",
    "Lue.Wire.kernel_arrives",
    "Lue.Wire.policies_arrive",
    "Lue.Wire.policies_arrive_unchanged",
    "Lue.Wire.parameters_arrive",
    "Lue.Wire.countUnique_arrives",
    "Lue.Wire.zonalValue_arrives",
    "Lue.Wire.zonalMean_arrives",
    "Lue.Wire.zonalDiversity_arrives",
    "Lue.Wire.zonalMajority_arrives",
    "Lue.Wire.communicator_arrives",
    "Lue.Wire.partitionIO_arrives",
    "Lue.Wire.fragment_arrives",
    "Lue.Wire.accumulator_arrives",
    "Lue.Wire.integrate_arrives",
    "Lue.Wire.allocate_arrives",
    "Lue.Wire.clumpResult_arrives",
    "Lue.Wire.message_arrives",
    "Lue.Wire.Examples.domain_policy_is_lost"
   ],
   "note": "Sizes are smaller than 2^63. Domain policies that have a state are not sent (Examples.domain_policy_is_lost); those of the library do not have a state. Partition data of rank 0 cannot be sent (its serialize functions only assert). The HPX library (archives, collections of the standard library) is modelled by its contract."
  },
  {
   "property": "C73",
   "status": "proved",
   "theorems": [
    "Lue.Program.program_correct",
    "Lue.Program.program_partitioning",
    "Lue.Program.program_steps",
    "Lue.Program.op_simulates",
    "Lue.Program.sumAmount_lawful",
    "Lue.Program.allInt_lawful",
    "Lue.Program.zonalSum_lawful",
    "Lue.Program.split_total"
   ],
   "note": "Arithmetic is exact: rounding of floating point sums depends on the partitioning in the code. Operations whose results depend on the partitioning or on the schedule by design (unique_id, uniform, array_partition_id, locality_id) or by defect (clump, see C24) are not part of the programs. In the code tasks of subsequent operations overlap in time; in the model operations are executed one after the other, with any order of completion of the tasks of an operation."
  },
  {
   "property": "C74",
   "status": "proved",
   "theorems": [
    "Lue.Dataflow.dataflow_ends",
    "Lue.Dataflow.dataflow_completes",
    "Lue.Dataflow.dataflow_results",
    "Lue.Dataflow.dataflow_deterministic",
    "Lue.Dataflow.dataflow_sequential",
    "Lue.Dataflow.sequential_succeeds",
    "Lue.Dataflow.sequential_exists",
    "Lue.Dataflow.runStage_local1",
    "Lue.Dataflow.runStage_local2",
    "Lue.Dataflow.runStage_aggregate",
    "Lue.Dataflow.runStage_zonal",
    "Lue.Dataflow.runStage_focal"
   ],
   "note": "The contract of HPX (when_all, then, dataflow, unwrapping: a continuation runs once the futures it has been given are ready, and futures containing exceptions are propagated) is part of the model. The dependencies created by the local, aggregate, zonal and focal operations are tied to the models of these operations by the runStage theorems. Routing operations, whose tasks communicate through channels, are not sets of tasks of this kind: see C19 to C21 and C73."
  },
  {
   "property": "C75",
   "status": "proved",
   "theorems": [
    "Lue.Async.async_correct",
    "Lue.Async.async_ends",
    "Lue.Async.async_steps",
    "Lue.Async.started_inputs",
    "Lue.Async.call_executed",
    "Lue.Dataflow.runStage_fill",
    "Lue.Dataflow.runStage_localScalar",
    "Lue.Dataflow.runStage_local3",
    "Lue.Dataflow.runStage_scalar",
    "Lue.Dataflow.runStage_focal2",
    "Lue.Dataflow.runStage_inflowCount"
   ],
   "note": "Combines C73 and C74: what a script means is defined for whole arrays (Program/Spec), the thread executing it creates sets of tasks, and all interleavings are considered. async_correct is stated for at most a number of steps (fuel) of the thread: any number which is large enough gives the same, correct, outcome. Operations like accu start once all partitions of their arguments are ready, and result in any of their possible outcomes: their tasks and channels are the subject of C19 and C67. In async_ends (no deadlocks, whatever the script) scripts calling these are excluded, because they do not end given a cycle of flow directions crossing a border between partitions."
  },
  {
   "property": "C76",
   "status": "proved",
   "theorems": [
    "Lue.Rounding.sum_correct",
    "Lue.Rounding.sum_exact",
    "Lue.Rounding.sum_partitionings",
    "Lue.Rounding.zonal_sum_correct",
    "Lue.Rounding.zonal_mean_correct",
    "Lue.Rounding.accu_correct",
    "Lue.Rounding.accu_yields"
   ],
   "note": "The models of the operations are those of C08, C10 and C19, which are generic in the type of the elements, used with the floating point numbers of C58. How a result is rounded is a parameter. Accurate is what IEEE 754 guarantees (a sum which is very small is exact, hence there is no absolute error for additions). The numbers must be small enough for no sum to overflow (Fits). For accu, cells on or downstream of a cycle are not covered, see C19."
  },
  {
   "property": "C77",
   "status": "proved",
   "theorems": [
    "Lue.MassBalance.threshold_correct",
    "Lue.MassBalance.fraction_correct",
    "Lue.MassBalance.capacity_correct",
    "Lue.MassBalance.trigger_correct",
    "Lue.MassBalance.yields_iff"
   ],
   "note": "The models of the operations are instances of the routing of C20, with the floating point numbers of C58. How a result is rounded is a parameter; AccurateSplit is what IEEE 754 guarantees (the product may have an absolute error, when it is very small). The numbers must be small enough for no sum to overflow (Fits). Cells on or downstream of a cycle are not covered, see C19."
  },
  {
   "property": "C78",
   "status": "proved",
   "theorems": [
    "Lue.FocalRounding.focal_sum_correct",
    "Lue.FocalRounding.focal_mean_correct",
    "Lue.FocalRounding.focal_high_pass_correct",
    "Lue.FocalRounding.convolve_correct",
    "Lue.FocalRounding.focal_reproducible"
   ],
   "note": "The models of the operations are those of C14 and C16, which are generic in the type of the elements, used with the floating point numbers of C58. How results are rounded is a parameter, see C76 and C77. Weights of convolve are of the type of the elements. Products and sums are rounded separately."
  },
  {
   "property": "C79",
   "status": "proved",
   "theorems": [
    "Lue.Life.nextGeneration_correct",
    "Lue.Life.gameOfLife_correct",
    "Lue.Life.gameOfLife_fails",
    "Lue.Life.initializeGeneration_correct"
   ],
   "note": "A model built on top of the models of the operations (C07, C14, C16, C64). Elements are 8 bit integers which wrap around. The rules are stated separately in Life/Spec.lean. Which functions the operators call is C48, how the calls of simulate are scheduled is C28, writing files is C40."
  },
  {
   "property": "C80",
   "status": "proved",
   "theorems": [
    "Lue.NoData.focalMinimum_documented",
    "Lue.NoData.focalMaximum_documented",
    "Lue.NoData.focalMajority_documented",
    "Lue.NoData.focalDiversity_documented",
    "Lue.NoData.focalSum_documented",
    "Lue.NoData.focalSum_documented_nonneg",
    "Lue.NoData.focalSum_documented_float",
    "Lue.NoData.focalMean_documented",
    "Lue.NoData.convolve_documented",
    "Lue.NoData.focalHighPass_undocumented",
    "Lue.NoData.highPass_lonely",
    "Lue.NoData.sum_marked",
    "Lue.NoData.d8_documented",
    "Lue.NoData.upstream_documented",
    "Lue.NoData.downstream_documented",
    "Lue.NoData.downscale_documented",
    "Lue.NoData.noise_documented"
   ],
   "note": "What is documented is stated in NoData/Spec.lean, without reference to the models. The models are those of C13, C14, C16, C17, C22, C64 and C78. Whole numbers do not overflow here; floating point numbers are finite ones or NaN, and sums must fit (C78)."
  },
  {
   "property": "C81",
   "status": "proved",
   "theorems": [
    "Lue.Cutout.cutout_correct",
    "Lue.Cutout.change_stays_near",
    "Lue.Cutout.whole_same"
   ],
   "note": "Programs are those of C73. Operations the result of which can depend on all cells (zonal, routing, aggregation) are not part of these programs. The part can share borders with the array."
  },
  {
   "property": "C82",
   "status": "proved",
   "theorems": [
    "Lue.Cutout.accu_catchment",
    "Lue.Cutout.split_catchment",
    "Lue.Cutout.catchment_same"
   ],
   "note": "The models are those of C19 to C21, with exact numbers. split_catchment holds for each rule for splitting the material."
  },
  {
   "property": "C83",
   "status": "proved",
   "theorems": [
    "Lue.Cutout.zonal_zone",
    "Lue.Cutout.zoneValues_perm",
    "Lue.Cutout.statistics_determined",
    "Lue.Cutout.majority_determined"
   ],
   "note": "The model is the one of C10, with exact numbers. zonal_zone holds for each statistic which is determined by the values in the zone; statistics_determined and majority_determined show this for the statistics."
  }
 ]
}