L='Lue.Localities.'
c('C04','proved',[L+t for t in ['localityIdx_lt','localityIdx_mono','nrAssigned_balanced','nrAssigned_pos_diff','instantiate_throws','instantiate_each_once']],'')
c('C05','proved',[L+t for t in ['hilbertCurve_visits_all_once','hilbert_fuel_mono','linearCurve_visits_all_once']],'fuel is proved sufficient')
c('C06','proved',['Lue.FromBuffer.instantiate_spec'],'')
O='Lue.LocalOp.'
c('C07','proved',[O+t for t in ['unary_spec','binary_spec','binaryAS_spec','binarySA_spec','scalar_spec','scalar2_spec','ternary_spec','where_spec','where_scalar_spec','where_scalar_wrong','where2_spec','binary_partitioning_independent','array2_throws','binary_misaligned']],'includes two findings: swapped no-data policies in where overloads, and misaligned partitions passing the compatibility check')
G='Lue.Aggregate.'
c('C08','proved',[G+t for t in ['aggregateArray_spec','sum_spec','sum_collision','minimum_spec','maximum_spec','all_spec','any_spec','none_spec']],'associative, commutative aggregation; rounding of floating point sums is not modelled')
c('C09','proved',[G+'unique_spec'],'')
Z='Lue.Zonal.'
c('C10','proved',[Z+t for t in ['zonalArray_spec','zonalArrayS_spec','zoneValues_noData','mem_zoneValues','zonal_sum_spec','zonal_area_spec','zonal_minimum_spec','zonal_maximum_spec','zonal_mean_spec','zonal_diversity_spec','zonal_majority_spec']],'')
c('C33','proved',[Z+t for t in ['reclassify_spec','zonalRandom_spec','zonalRandom_draws','randomTable_draws']],'')
c('C11','proved',['Lue.UniqueId.uniqueId_spec','Lue.UniqueId.launches_ok'],'wrap-around of the ID counter is not modelled')
c('C12','proved',['Lue.CellIndex.'+t for t in ['cellIndex_impl','cellIndex_spec','cellIndex_wrong']],'finding: wrong for non-square partitions')
c('C13','proved',['Lue.Resample.'+t for t in ['downscale_impl','downscale_spec','downscale_wrong','downscale_zero','downscale_one']],'finding: wrong source cells for some partitionings (implementation bug, characterised exactly)')
c('C14','proved',['Lue.Focal.'+t for t in ['focal1_spec','focal2_spec','focal1_throws','focal1_partitioning_independent','spawn_ok','neighbourhood_ok']],'nine halo cases, all window reads in bounds, any task order; throws iff a partition is smaller than the kernel radius')
FS='Lue.FocalStats.'
c('C15','proved',[FS+t for t in ['boxKernel_spec','circleKernel_spec','circle_symmetric','circle_extremes']],'rank 2')
c('C16','proved',[FS+t for t in ['focal_sum_spec','focal_mean_spec','focal_minimum_spec','focal_maximum_spec','focal_majority_spec','focal_diversity_spec','focal_min_mean_max','mem_focalValues','mem_focalValues_noData','focal_high_pass_spec','convolve_spec']],'exact arithmetic; finding: focal_mean and focal_high_pass are documented to propagate no-data in focal cells, they do not (C16)')

c('C17','proved',['Lue.Routing.'+t for t in ['d8FlowDirection_spec','IsD8.lower','IsD8.acyclic','IsD8.path_ends','IsD8.path_ends_in_sink']],'exact arithmetic; finding: the halo elevation is numeric_limits::min(), which is positive for floats and makes border cells drain outwards with default policies')

c('C18','proved',['Lue.InflowCount.'+t for t in ['inflowCount_spec','inflowCount_single_row','inflowCount_single_row_counted_twice','inflowCount_invalid_network']],'partitions of at least 2x2 cells, any order of partition tasks; findings: wrong for partitions of a single row or column')
Q='Lue.Accu.'
c('C19','proved',[Q+t for t in ['accu_correct','accu_unique','accu_yields_iff','accu_executes','accu_cyclic','routed_iff','routed_unique']]+['Lue.Router.'+t for t in ['router_safe','router_terminates','router_finishes_iff','router_result','router_cyclic']],'all interleavings of partition tasks and messages; partitions of at least 2x2 cells; finding: the operation never finishes if a stream which crosses a partition border is on or downstream of a cycle')
c('C20','proved',[Q+t for t in ['accu_correct','split_correct','split_unique','split_yields_iff']],'')
c('C21','proved',[Q+t for t in ['accuThreshold_correct','accuFraction_correct','accuCapacity_correct','accuTrigger_correct','split_conserves','operations_bounds']],'exact arithmetic')
c('C32','proved',['Lue.Memory.array_history','Lue.Memory.array_noLeak','Lue.Memory.array_nrElements','Lue.Memory.array_nrElements_le','Lue.Memory.step_others','Lue.Memory.copyConstruct_equal','Lue.Memory.copyAssign_equal','Lue.Memory.move_equal','Lue.Memory.reshape_equal','Lue.Memory.writeAt_distinct','Lue.Memory.assertInvariants_iff','Lue.Memory.assertInvariants_reshape_empty','Lue.Memory.copyAssign_after_remove'],'All histories of constructors, copies, moves, assignments, reshape, clear, remove, element writes and destruction. Findings: reshape to an empty shape keeps the buffer (asserted invariants fail); after remove, copy-assignment from an array with the same shape keeps the smaller number of elements.')
c('C30','proved',['Lue.Memory.shared_history','Lue.Memory.shared_noLeak','Lue.Memory.copy_refers','Lue.Memory.write_visible','Lue.Memory.move_refers','Lue.Memory.moveAssign_shared','Lue.Memory.moveAssign_alias','Lue.Memory.exampleHOps_run'],'All histories of operations on partition data. Finding: move-assigning to a handle clears the elements of all other handles sharing its buffer; these keep their shape and a dangling span (moveAssign_shared, moveAssign_alias).')
c('C26','proved',['Lue.FirstN.'+t for t in ['first_n_safe','first_n_terminates','first_n_result','first_n_finishes','first_n_once','first_n_overtaken']],'All interleavings of tasks and messages. Finding: result_partition() is not ordered with respect to the walk; when the walk finishes a partition first, the promise is satisfied twice (first_n_overtaken).')

c('C25','proved',['Lue.DecreasingOrder.'+t for t in ['decreasing_order_safe','decreasing_order_terminates','decreasing_order_result','IsDecreasing.take','first_n_decreasing_order','decreasing_order_global','decreasing_order_overtaken','example_overtaken','example_lowest']],'All interleavings of tasks and messages, for route_partition() not overtaken by recording. Findings: the sentinel numeric_limits::min() is positive for floating-point values (example_lowest); route_partition() called after the partition is finished throws (example_overtaken); the global overload reads the first element of an empty collection when there are no values.')
c('C28','proved',['Lue.Simulate.'+t for t in ['run_safe','run_order','run_ready_after_called','run_in_flight','run_quiet','run_complete','run_progress','run_not_throttled','run_ready_enabled','run_terminates','run_exceeds']],'All numbers of samples, time steps, rate limits and completion orders. Finding: until the first time step is ready, rate_limit + 1 time steps can be in flight (run_exceeds), because the semaphore starts with the first time step as lower limit; run_in_flight proves rate_limit + 1 as a bound, and rate_limit once the first step is ready.')
c('C27','proved',['Lue.Serializer.'+t for t in ['serializer_safe','serializer_order','serializer_predecessors','serializer_complete','serializer_gap','serializer_terminates','serializer_twice']],'All orders of requests and completions, all keys. Findings: a generation that is never requested in a process blocks all later ones (serializer_gap), which happens when an array without partitions in that process is written; requesting a generation twice gives an unusable promise (serializer_twice).')
c('C29','proved',['Lue.LueIO.idxsByLocality_spec','Lue.LueIO.idxsByLocalityAsserts_ok','Lue.LueIO.SerialOrder.isOrder','Lue.LueIO.toLue_stores','Lue.LueIO.toLue_each_cell_once','Lue.LueIO.parallelToLue_stores','Lue.LueIO.Stored.unique','Lue.LueIO.toLue_succeeds_iff','Lue.LueIO.fromLue_represents','Lue.LueIO.fromLue_stride_throws','Lue.LueIO.fromLue_fails_noRoom','Lue.LueIO.fromLue_fails_partitionShape','Lue.LueIO.roundtrip','Lue.LueIO.roundtrip_all','Lue.LueIO.toLue_history','Lue.LueIO.timeSteps_disjoint'],
 '2D arrays, constant and temporal. HDF5 is modelled by what it does with hyperslab selections; any write order, any element-wise interleaving for parallel I/O, any read order over localities.')
c('C22','proved',['Lue.Streams.upstream_spec','Lue.Streams.downstream_spec','Lue.Streams.upstream_total','Lue.Streams.upstream_downstream_adjoint','Lue.Streams.downstreamDistance_spec'],'For all networks (also those with cycles, and with codes which are not a direction), partitionings with partitions of at least 3 x 3 cells (others make the focal operation throw, C14) and orders of the tasks. Material elements are values or no-data; overflow is not modelled. Cells draining out of the array get 0 from downstream (halo value).')
c('C23','proved',['Lue.Clump.clump_partition_components','Lue.Clump.flood_fill_component'],'All partitions of any shape, with and without diagonal connectivity, for every zone value and no-data pattern; the scanline flood fill is modelled with its stack of spans and shown to terminate.')
c('C24','proved',['Lue.Clump.'+t for t in ['clump_sound','clump_components_partial','clump_single_partition','clump_deterministic','clump_incomplete']],'Soundness (cells with the same id are in the same component; no-data is preserved) for all arrays, partitionings, connectivities and task orders; the ids do not depend on the order of the tasks. Completeness is proved when the collections of ids left after merging are disjoint, and for a single partition; it is refuted in general (clump_incomplete: an E-shaped zone over several partitions gets two ids, because merging is not transitive).')
c('C34','proved',['Lue.LueCalls.'+t for t in ['registerAll_ok','writes_exclusive','writes_before','calls_serialized','write_excludes_reads','read_contents','final_contents','calls_progress','calls_terminate','calls_no_error','read_overlaps_write','read_sees_later_write','gap_deadlock']],'Serial I/O, one dataset; the serializers are modelled by what is proved in C27. SafeReads lists circumstances in which reads exclude later writes; outside of it read_overlaps_write refutes the claim (this explains the BUG comment in to_lue.hpp). Progress and absence of failing assertions need every locality involved in a call to be involved in all earlier ones (gap_deadlock otherwise).')
c('C35','proved',['Lue.ValueOps.'+t for t in ['add_exact','subtract_exact','multiply_exact','divide_exact','divide_default_exact','divide_not_exact','modulus_exact','negate_exact','abs_exact','cast_exact','cast_float_exact','cast_float_not_exact']],'All integral types (any number of bits, signed or not), all overloads (array/scalar), any value computed by the processor on overflow. boost::safe_numerics is modelled by what it documents. Floating point arithmetic is not modelled; floating point values are exact rationals, infinities and NaN in the conversion.')
c('C36','proved',['Lue.DataModel.SameShape.'+t for t in ['history','history_read','read_past_end','write_past_end','writeAt_readAt']]+['Lue.DataModel.DifferentShape.'+t for t in ['history_read','history_nr','history_expand','write_other','expandFlat_rank2','expandFlat_wrong','expandFlat_rank1']]+['Lue.DataModel.DifferentShapeConstantShape.'+t for t in ['history_read','history_nr']]+['Lue.DataModel.name_inj','Lue.DataModel.two_handles_lose_count','Lue.DataModel.SameShapeVariableShape.expand_spec','Lue.DataModel.DifferentShapeVariableShape.expand_spec','Lue.DataModel.DifferentShapeVariableShape.failed_expand_blocks'],'All shapes, ids and histories; HDF5 is modelled by what it does with extents, hyperslab selections, links and attributes. Findings: expandFlat_wrong, expandFlat_rank1 (flat array of extents works for rank 2 only), two_handles_lose_count, failed_expand_blocks and lost items in the count.')
c('C37','proved',['Lue.Chunk.'+t for t in ['chunk_small','chunk_large','chunk_rank1','chunk_rank2','chunk_empty_undefined','chunk_undefined','chunk_too_large','chunk_too_small']],'Real numbers instead of floating point numbers. Any order of dimensions with equal extents (unstable sort).')
c('C38','proved',['Lue.KinematicWave.'+t for t in ['kinematic_wave_correct','kinematic_wave_unique','kinematic_wave_yields_iff','kinematic_wave_water_balance','balance_existsUnique','fq_eq_zero_iff','dfq_correct','dfq_bound','guess_pos','guess_divisor_pos','residual_bound','balance_mono','newDischarge_balance','newDischarge_extraction','newDischarge_nonneg','newDischarge_dry','value_policies_no_extraction']],'Real numbers instead of floating point numbers; boost newton_raphson_iterate is a parameter: the water balance assumes it finds the (unique) root, residual_bound bounds the error if it stops early. Finding: value policies turn extraction into no-data.')
c('C39','proved',['Lue.Terrain.'+t for t in ['gradients_spec','slope_spec','plane_gradients','slope_border','aspect_spec','aspectAngle_range','aspectAngle_axis','aspectAngle_swapped','aspectAngle_correct_iff','aspect_plane_east']],'Real numbers and NaN instead of floating point numbers. Findings: slope_border, aspectAngle_correct_iff, aspect_plane_east.')
c('C40','proved',['Lue.GdalIO.'+t for t in ['hyperslab_make','isContainedBy_iff','fromGdal_reads','fromGdalHyperslab_reads','fromGdalHyperslab_refused','reads_noData_iff','toGdal_order','toGdal_writes','gdal_round_trip','toGdal_clone_refused','createRaster_wraps','integral_lawful','floating_lawful']]+['Lue.Create.'+t for t in ['createPerLocality_ok','createEach_ok','createPerLocality_throws']],'GDAL is modelled by what it documents for reading and writing blocks of a single band. Findings: toGdal_clone_refused, createRaster_wraps.')
c('C41','proved',['Lue.Position.'+t for t in ['meshGrid_correct','arrayLike_correct','arrayPartitionId_correct','elementPerPartition_correct','partitionCountUnique_correct','partitionCountUnique_values','range_values','range_correct','range_not_unique']],'2D, exact arithmetic. Findings: range_not_unique (range assigns the same number to different cells), partitionCountUnique_values (wrong offset for enlarged last partitions).')

c('C42','proved',['Lue.PyArray.getItem_correct','Lue.PyArray.getItem_invalid','Lue.PyArray.getItem_shape','Lue.PyArray.selected_inExtent','Lue.PyArray.setItemArray_correct','Lue.PyArray.getItem_setItem','Lue.PyArray.setItemArray_invalid','Lue.PyArray.setItemArray_wrong_number','Lue.PyArray.setItemArray_int_too_few','Lue.PyArray.setItemArray_int_too_many','Lue.PyArray.setItemNumber_correct','Lue.PyArray.setItemNumber_step_throws','Lue.PyArray.select_negative','Lue.PyArray.sliceCompute_reversed','Lue.PyArray.getStrings_elements','Lue.PyArray.unicodeStrings_eq','Lue.PyArray.encodedStrings_eq','Lue.PyArray.setStrings_encoded','Lue.PyArray.setStrings_slice','Lue.PyArray.getStrings_slice'],'Arrays of any rank; the selection is specified as the combinations of positions picked per dimension. HDF5 is modelled by what it does with hyperslabs; strides obtained from negative steps are a parameter. Findings: filling with a step throws, an integer key with too few values reads past the end, reading strings gives empty strings, Unicode strings are all stored as the first one, slices of strings read or free past the end.')
c('C43','proved',['Lue.Integrate.'+t for t in ['integrate_safe','integrate_terminates','integrate_finishes','integrate_once','integrate_sum','integrate_no_data','integrate_overtaken']]+['Lue.Walk.'+t for t in ['walk_safe','walk_terminates','walk_finishes','walk_once','walk_result','walk_overtaken']],'The protocol is proved correct once for any algorithm visiting the cells of fragments (Walk), with integrate as an instance. Nothing is assumed about the addition of elements. Routes are well formed (as produced by decreasing_order, C25) and visit a cell once at most; integrand and route have the same partitions (not checked by the code). Finding: integrate_overtaken.')
c('C44','proved',['Lue.Allocate.'+t for t in ['allocate_safe','allocate_terminates','allocate_finishes','allocate_nothing','allocate_grass','allocate_no_data','allocate_productions']],'Rational numbers instead of floating point numbers; at least one crop, all routes are zones, input arrays have the same partitions as the routes (none of these is checked by the code). Findings: allocate_nothing, allocate_grass, allocate_productions.')
c('C45','proved',['Lue.Identifier.'+t for t in ['identifier_open_iff_named','identifier_is_valid','identifier_closed_once','identifier_no_leak','identifier_closed_when_last_name_disappears']],'HDF5 is modelled by its documented reference counts (H5Iget_ref, H5Iinc_ref, H5Iis_valid, close). One thread.')
c('C46','proved',['Lue.Validate.'+t for t in ['validate_reports_no_errors_iff','assertIsValid_iff','assertIsValid_strict','active_sets_partition','different_objects_eq','collection_sets_singleton','validate_in_bounds','validate_out_of_bounds','objects_outside_sets_accepted','shared_object_array_accepted','time_grid_values_not_validated']],'A dataset is modelled by the numbers and identifiers the validation reads from it. Findings: validate_out_of_bounds, objects_outside_sets_accepted, shared_object_array_accepted, time_grid_values_not_validated.')
c('C47','proved',['Lue.Numpy.'+t for t in ['fromNumpy_holds','fromNumpy_default','fromNumpy_throws','toNumpy_exports','numpy_round_trip','numpy_round_trip_noData','array_round_trip','selectElement_iff','createArray_holds','createArray_refused']],'Arrays of rank 2; NumPy arrays are contiguous and row-major. Finding: exporting the result of partition_count_unique (C41) exposes uninitialised memory if the last partition is enlarged.')
c('C48','proved',['Lue.PyOps.'+t for t in ['binary_correct','mod_number_scalar','binary_unsupported','unary_correct','unary_unsupported','eval_correct','eval_deterministic','chain_raises','intLib_mirrored']],'The overload tables of both classes, pybind11\'s overload resolution and Python\'s evaluation of operators are modelled; the operations called are those of C07, with policies and functors as parameters which have to be mirrored (x < y iff y > x, symmetric logical operators). Finding: Scalar.__rmod__ has its arguments swapped (mod_number_scalar).')
c('C49','proved',['Lue.RasterView.'+t for t in ['views_refine','layer_read_back','layer_listed','create_existing','contains_iff','open_layers']],'Simulation between files (phenomena, property sets, properties, soft links, value groups) and rasters, by induction on histories. Properties that are not layers may link to the grids of other rasters, or to the own grid with another discretization type. Files which were written by other software: contains_iff and open_layers hold for all files.')
c('C50','partial',['Lue.GdalBlocks.'+t for t in ['compareRasters_iff_partial','compareRasters_metadata','compareRasters_missing','strips_not_compared','strips_undefined','larger_blocks_overflow']],'Proved for rasters stored in full blocks, as many in each direction (such as a single block), in both rasters the same layout; metadata for all rasters. Other layouts: refuted, for all rasters stored in strips (strips_not_compared, strips_undefined), and by examples for blocks with padding. The coordinates passed to shape_in_valid_cells are swapped.')
c('C51','partial',['Lue.Translate.'+t for t in ['import_ok_partial','export_ok_partial','roundtrip_partial','import_contents','export_contents','import_strips_lost','import_strips_fails','export_strips_lost']],'Proved for rasters stored as a single block. For other layouts refuted: exact contents of the layers if there are at most 10 blocks in each direction (import_contents), cells lost for rasters in at most 10 strips, failure for more strips. Coordinates in a linearly ordered field.')
c('C52','proved',['Lue.PyIO.'+t for t in ['parse_pathname','parse_iff','parse_names','write_spec','write_succeeds_iff','raster_unchanged','read_spec','read_succeeds_only','write_then_read','readSubset_spec','readSubset_succeeds_only','readSubset_zero','readSubset_default_one_thread','dispatch_iff','write_fails_halfway']],'On top of the models of raster views (C49) and of the I/O of partitions (C29). Findings: an empty subset reads the whole raster, the default partition shape of a subset is that of the whole raster, writing a too large array writes part of it, a smaller array is written to the first rows and columns.')
c('C53','proved',['Lue.Pcraster.'+t for t in ['spatial_correct','ifthen_correct','ifthenelse_correct','ifthenelse_refused','defined_correct','cover_correct','max_correct','min_correct','extreme_single','boolean_correct','boolean_number','conversions_correct','conversions_number','uniqueid_correct','xcoordinate_correct','ycoordinate_correct','translateWindowLength_iff','catchmenttotal_zero']],'On top of C07, C11, C12, C20, C47 and C48. Coordinates in exact arithmetic, and for partitionings for which cell_index is right (C12). Findings: catchmenttotal is 0 everywhere; ifthenelse refuses a number of another type than the elements of the other expression; max(a, 0, 1) fails for floating point arrays.')
c('C54','proved',['Lue.Calculate.'+t for t in ['calculate_correct','calculate_fails','calculate_refused','statement_parsed','expr_correct','hasExtension_iff','inputPath_iff','outputPath_iff','variableNames_ok','freshIndex_ends','suffixed_identifier','clone_not_first','attribute_fails','overwriting_input','quoted_output']],'For paths without quotes and backslashes, of which the name of the file up to the first dot can be part of an identifier, outputs which are not also inputs, and expressions without lambda expressions, comprehensions and formatted strings. Python, the file system, from_gdal and to_gdal are parameters. Findings: the clone is not the first raster of the expression; an output which is also an input is created while it is being read; quoted outputs are refused.')
c('C55','proved',['Lue.PcrFramework.'+t for t in ['dynamic_run','static_run','dynamic_accepted','monteCarlo_run','postmcloop_never','monteCarlo_static','printed_runs','directories_created','generateNameT_iff','generateNameT_refused','generateNameT_inj','generateNameST_inj','generateNameST_absolute','deterministic_reachable']],'Uses the model of run_deterministic and run_stochastic of C28. Findings: premcloop is called before and after each sample and postmcloop is never called; a Monte Carlo simulation of a static model fails; the current time step is not reset between samples; with an absolute name all samples use the same file.')
c('C56','proved',['Lue.TimeInput.'+t for t in ['load_series','lookupTable_ok','timeinput_number','timeinput_array','timeinput_beyond','cacheAfter_get','timeinput_history','timeinput_first','timestep_zero','unnamed_column','row_by_position','example_series']],'Conversion of text to numbers is a parameter. Uses reclassify of C10. Findings: for time step 0 the last row is used; blank names of columns shift the rows; rows are selected by position, not by time; changes to a file are ignored.')
c('C57','proved',['Lue.Config.'+t for t in ['list_read','list_round_trip','castList_iff','castList_thrown','shape_iff','toSigned_iff','toSigned_digits','toUnsigned_digits','toUnsigned_negative','required_iff','optional_spec','applicationSection_spec','sign_lost','values_dropped','reads_unique']],'The regular expressions are modelled with greedy matching and backtracking; boost::lexical_cast and the configuration of HPX are described in the model. castList_iff characterises all texts which are accepted. Findings: the search is not anchored, so a minus sign in a list is dropped (the number becomes positive), as are values in front of a missing comma and the integral part of a number with a decimal point; negative numbers are accepted for unsigned entries.')
c('C58','proved',['Lue.FloatOps.'+t for t in ['sqrt_computes','log_computes','log10_computes','log_zero','acos_computes','asin_computes','atan_computes','sin_computes','cos_computes','tan_computes','exp_computes','abs_computes','negate_computes','floor_computes','ceil_computes','trunc_computes','round_computes','add_computes','subtract_computes','multiply_computes','divide_computes','modulus_computes','pow_computes','pow_zero_negative','pow_overflow','noData_iff','noData_iff2','bounded','compare_spec','logic_spec','not_spec','described','closeTo_asymmetric']],'Floating point values are real numbers, infinities and NaN; how results are rounded is a parameter. Arguments for which the code does not satisfy the property are excluded (zero in case of log and log10, powers of zero with negative exponents and powers which are too large), and theorems show that the result is infinite in these cases.')
c('C59','proved',['Lue.JsonImport.'+t for t in ['import_spec','addSame_iff','addTracker_spec','addLocation_spec','clock_kept','existing_space_refused','other_clock_refused','no_clock_undefined','objectIndex_overwritten','box_not_south','datatype_ignored','inline_ignored','values_lost']],'For documents which are consistent (Doc.Fits): the shapes listed for a property are those of the stored arrays, active sets start at the first ID, and features for which the code is wrong are not used. What happens otherwise is stated by separate theorems (findings). The index of active objects is not part of the claim, it is overwritten.')
c('C60','proved',['Lue.Runtime.'+t for t in ['between_calls','events_eq','events_prefix','no_fault','no_deadlock','bounded','completes','stopped','script_stops','scope_runs','scope_raises','sequential_start','spurious_finalizes','concurrent_start']],'Without spurious wakeups of the task waiting for the destructor, for which the code is wrong (spurious_finalizes, finding), and for calls by a single thread (concurrent_start, finding). Absence of faults and deadlocks and boundedness hold with spurious wakeups as well.')
c('C61','proved',['Lue.Environment.'+t for t in ['expand_pieces','expand_plain','value_searched','joined_searched']],'For texts and values in which dollar signs are only used for references. Otherwise values are searched for references depending on their position (findings).')
c('C62','proved',['Lue.FieldApi.'+t for t in ['never_ambiguous','api1_correct','api1_unsupported','api2_correct','api2_unsupported','api3_correct','api3_unsupported','eval_correct','means_total','ccall_result','handle_stable','destruct_ok','no_leak','elementType_iff','createScalar_exact','createScalar_rounds','createScalar_undefined']],'Local operations, operators, and the C functions for these. Creating scalars in Python for integral numbers up to 2^53 (2^24 for 32 bit floating point elements): larger ones are rounded, and numbers that do not fit are not detected (findings).')
c('C63','proved',['Lue.Scalability.'+t for t in ['pool_sizes','pool_accepts','pool_roundtrip','benchmark_roundtrip','script_runs','script_ok','import_ok','import_rows','strong_scaling','weak_scaling','no_single_worker','sizes_range','shape_size_le','first_shape_square','first_shape_other']],'Durations are rational numbers and shapes are computed with real numbers: rounding of floating point numbers is not modelled. Findings: results of experiments without a run with a single worker can not be post-processed (no_single_worker); the first shape of a range of shapes is not the smallest shape passed in, unless its extents are equal (first_shape_other).')
c('C64','proved',['Lue.Random.'+t for t in ['uniformArray_spec','normalArray_spec','normalArray_total','uniformArray_undefined','uniformArray_order','randomScalar_spec','randomScalar_undefined','randomShape_spec','uniformInt_spec','uniformReal_spec','normal_spec','normal_not_verified','randomShape_undefined','uniform_nan','uniform_noData','uniformElement_iff','normalElement_iff','randomPy_spec','randomPy_refused','uniformOverloads_iff','uniformField_spec','uniformField_refused','noiseArray_spec','noise_mixes','noise_outOfBounds']],'The distributions of the standard library are parameters: what is proved is that what they promise for a single draw holds for all cells. Nothing is claimed about statistics. Findings: unusable arguments (min > max; stddev <= 0 when creating a scalar or given a shape) are not verified and result in undefined behaviour; given a shape, no-data arguments are used as if they are normal values; open_simplex_noise does not verify that its arguments are partitioned in the same way: results then mix cells, or memory outside of partitions is read.')
c('C65','proved',['Lue.KernelPy.'+t for t in ['kernel_contiguous','kernel_iff','kernel_fortran','kernel_refused','resolve_iff','focalPy_eq','focalSumPy_spec','focalMeanPy_spec','focalMinimumPy_spec','focalMaximumPy_spec','focalMajorityPy_spec','focalDiversityPy_spec','focalHighPassPy_spec','convolvePy_spec','Same.operations','Same.convolve','even_kernel','empty_kernel','transposed_kernel','flipped_kernel','expandPy_spec','expandPy_refused','expandPy_strided','expand_everyOther']],'Findings: strides are ignored. The weights are right if and only if the NumPy array is stored row by row (kernel_iff): a transposed view has no effect (transposed_kernel), arrays in Fortran order are transposed (kernel_fortran), flipped views result in reading outside of the array (flipped_kernel), and slices of ids result in object arrays for other ids (expand_everyOther). In release builds, the last row and column of kernels with an even extent are ignored (even_kernel), and memory outside of empty kernels is read (empty_kernel).')
c('C66','proved',['Lue.Shapefile.'+t for t in ['selection_iff','selects_unique','export_points','located_fst','located_all','layerName_inj','export_boxes','refuses_items','refuses_static','refuses_time','refuses_rank','refuses_missing','directory_ignored','first_layer_extra','no_moments','no_time_domain','boxes_overflow']],'For points, the first set must start at the first active object: validation (C46) does not require that, and if it does not then the first layer contains extra points (first_layer_extra). Findings: the directory in the name of the output is ignored for points (directory_ignored); a valid property set without moments, or mobile points without time domain, is undefined behaviour (no_moments, no_time_domain); the rank of boxes is not verified: memory is overwritten if it is larger than 2 (boxes_overflow).')
c('C67','proved',['Lue.AccuInfo.'+t for t in ['info_safe','info_yields_iff','info_result','Allowed.unique','Allowed.class','info_unique','single_partition']],'Cells on or downstream of a cycle are not part of the claim. Findings: the class of an input cell in which also a stream arrives that entered the partition elsewhere depends on the schedule (examples with two schedules: sink or partition input cell); a ridge that is also a sink or output cell is classified as ridge, an input cell that is a sink as input cell; no cell is ever classified as a confluence, although the class exists.')
c('C68','proved',['Lue.PartitionIO.'+t for t in ['construct_ok_iff','addOutputCell_ok_iff','removeInputCell_ok_iff','drain_ok_iff','drain_spec','partitionOffsets_spec','partitionOffsets_neighbour','partitionOffsetCounts_spec','drain_partitionOffsets','drain_all','history','history_drained']],'Methods are atomic. The order of the keys of maps is not modelled, nor are serialization and migration. Without assertions, misuse goes unnoticed: adding an output cell twice loses the second value, removing an input cell twice is undefined behaviour.')
c('C69','proved',['Lue.Structure.'+t for t in ['dataset_structure','dataset_never_broken','time_discretization_found','space_discretization_found','presence_discretization_found','property_names_unique','unstorable_breaks_dataset']],'For datasets whose calls do not run into the limits of the storage (AllStorable): the origin of an epoch is not the empty string, and a domain is shared through at most 16 property-sets (the limit of HDF5). unstorable_breaks_dataset proves that the condition is needed: outside it, a failing call leaves a file that can no longer be opened. The contents of value arrays are the subject of C36.')
c('C70','proved',['Lue.Channels.'+t for t in ['received_from_neighbour','exchange_with_neighbours','ended_complete','channels_to_neighbours','register_succeeds','unregister_own','ready_possible','delivery_possible','send_possible','channels_not_shared']],'The operations are called by one thread (the counter of invocations is not atomic); what happens otherwise is shown by an example. HPX channels and AGAS are modelled by their contract.')
c('C71','proved',['Lue.Dot.'+t for t in ['export_depicts_dataset','graph_depicts','readDot_all','dataset_stmts']],'Names of phenomena, property-sets, properties and universes must not contain <, > or &, as these are not escaped (examples show what happens otherwise). Addresses of different objects in the file are different.')
c('C72','proved',['Lue.Wire.'+t for t in ['data_arrives','data_written','array_arrives','kernel_arrives','policies_arrive','policies_arrive_unchanged','parameters_arrive','countUnique_arrives','zonalValue_arrives','zonalMean_arrives','zonalDiversity_arrives','zonalMajority_arrives','communicator_arrives','partitionIO_arrives','fragment_arrives','accumulator_arrives','integrate_arrives','allocate_arrives','clumpResult_arrives','message_arrives','Examples.domain_policy_is_lost']],'Sizes are smaller than 2^63. Domain policies that have a state are not sent (Examples.domain_policy_is_lost); those of the library do not have a state. Partition data of rank 0 cannot be sent (its serialize functions only assert). The HPX library (archives, collections of the standard library) is modelled by its contract.')
c('C73','proved',['Lue.Program.'+t for t in ['program_correct','program_partitioning','program_steps','op_simulates','sumAmount_lawful','allInt_lawful','zonalSum_lawful','split_total']],'Arithmetic is exact: rounding of floating point sums depends on the partitioning in the code. Operations whose results depend on the partitioning or on the schedule by design (unique_id, uniform, array_partition_id, locality_id) or by defect (clump, see C24) are not part of the programs. In the code tasks of subsequent operations overlap in time; in the model operations are executed one after the other, with any order of completion of the tasks of an operation.')
c('C74','proved',['Lue.Dataflow.'+t for t in ['dataflow_ends','dataflow_completes','dataflow_results','dataflow_deterministic','dataflow_sequential','sequential_succeeds','sequential_exists','runStage_local1','runStage_local2','runStage_aggregate','runStage_zonal','runStage_focal']],'The contract of HPX (when_all, then, dataflow, unwrapping: a continuation runs once the futures it has been given are ready, and futures containing exceptions are propagated) is part of the model. The dependencies created by the local, aggregate, zonal and focal operations are tied to the models of these operations by the runStage theorems. Routing operations, whose tasks communicate through channels, are not sets of tasks of this kind: see C19 to C21 and C73.')
c('C75','proved',['Lue.Async.'+t for t in ['async_correct','async_ends','async_steps','started_inputs','call_executed']]+['Lue.Dataflow.'+t for t in ['runStage_fill','runStage_localScalar','runStage_local3','runStage_scalar','runStage_focal2','runStage_inflowCount']],'Combines C73 and C74: what a script means is defined for whole arrays (Program/Spec), the thread executing it creates sets of tasks, and all interleavings are considered. async_correct is stated for at most a number of steps (fuel) of the thread: any number which is large enough gives the same, correct, outcome. Operations like accu start once all partitions of their arguments are ready, and result in any of their possible outcomes: their tasks and channels are the subject of C19 and C67. In async_ends (no deadlocks, whatever the script) scripts calling these are excluded, because they do not end given a cycle of flow directions crossing a border between partitions.')
c('C76','proved',['Lue.Rounding.'+t for t in ['sum_correct','sum_exact','sum_partitionings','zonal_sum_correct','zonal_mean_correct','accu_correct','accu_yields']],'The models of the operations are those of C08, C10 and C19, which are generic in the type of the elements, used with the floating point numbers of C58. How a result is rounded is a parameter. Accurate is what IEEE 754 guarantees (a sum which is very small is exact, hence there is no absolute error for additions). The numbers must be small enough for no sum to overflow (Fits). For accu, cells on or downstream of a cycle are not covered, see C19.')
c('C77','proved',['Lue.MassBalance.'+t for t in ['threshold_correct','fraction_correct','capacity_correct','trigger_correct','yields_iff']],'The models of the operations are instances of the routing of C20, with the floating point numbers of C58. How a result is rounded is a parameter; AccurateSplit is what IEEE 754 guarantees (the product may have an absolute error, when it is very small). The numbers must be small enough for no sum to overflow (Fits). Cells on or downstream of a cycle are not covered, see C19.')
c('C78','proved',['Lue.FocalRounding.'+t for t in ['focal_sum_correct','focal_mean_correct','focal_high_pass_correct','convolve_correct','focal_reproducible']],'The models of the operations are those of C14 and C16, which are generic in the type of the elements, used with the floating point numbers of C58. How results are rounded is a parameter, see C76 and C77. Weights of convolve are of the type of the elements. Products and sums are rounded separately.')
c('C79','proved',['Lue.Life.'+t for t in ['nextGeneration_correct','gameOfLife_correct','gameOfLife_fails','initializeGeneration_correct']],'A model built on top of the models of the operations (C07, C14, C16, C64). Elements are 8 bit integers which wrap around. The rules are stated separately in Life/Spec.lean. Which functions the operators call is C48, how the calls of simulate are scheduled is C28, writing files is C40.')
c('C80','proved',['Lue.NoData.'+t for t in ['focalMinimum_documented','focalMaximum_documented','focalMajority_documented','focalDiversity_documented','focalSum_documented','focalSum_documented_nonneg','focalSum_documented_float','focalMean_documented','convolve_documented','focalHighPass_undocumented','highPass_lonely','sum_marked','d8_documented','upstream_documented','downstream_documented','downscale_documented','noise_documented']],'What is documented is stated in NoData/Spec.lean, without reference to the models. The models are those of C13, C14, C16, C17, C22, C64 and C78. Whole numbers do not overflow here; floating point numbers are finite ones or NaN, and sums must fit (C78).')
c('C81','proved',['Lue.Cutout.'+t for t in ['cutout_correct','change_stays_near','whole_same']],'Programs are those of C73. Operations the result of which can depend on all cells (zonal, routing, aggregation) are not part of these programs. The part can share borders with the array.')
c('C82','proved',['Lue.Cutout.'+t for t in ['accu_catchment','split_catchment','catchment_same']],'The models are those of C19 to C21, with exact numbers. split_catchment holds for each rule for splitting the material.')
c('C83','proved',['Lue.Cutout.'+t for t in ['zonal_zone','zoneValues_perm','statistics_determined','majority_determined']],'The model is the one of C10, with exact numbers. zonal_zone holds for each statistic which is determined by the values in the zone; statistics_determined and majority_determined show this for the statistics.')
