{
 "claims": [
  {
   "property": "C01",
   "status": "proved",
   "theorems": [
    "MC.C01_relative_count",
    "MC.C01_increasing_count",
    "MC.C01_position"
   ],
   "note": ""
  },
  {
   "property": "C02",
   "status": "proved",
   "theorems": [
    "MC.C02_getSlice_partition",
    "MC.C02_getSlice_throws",
    "MC.C02_balanced",
    "MC.C02_balanced_throws"
   ],
   "note": ""
  },
  {
   "property": "C03",
   "status": "proved",
   "theorems": [
    "MC.C03_refines_list",
    "MC.C03_pop_empty",
    "MC.C03_pop_value",
    "MC.C03_capacity",
    "MC.C03_no_leak",
    "MC.C03_external_untouched",
    "MC.C03_writeOnPlace_overflow",
    "MC.C03_aggregate_self_uaf"
   ],
   "note": "Refinement over all histories that respect the documented preconditions; two findings: writeOnPlace past the size_t id check and self-insertion use-after-free are proved reachable."
  },
  {
   "property": "C04",
   "status": "proved",
   "theorems": [
    "MC.C04_renumberInPlace",
    "MC.C04_renumberInPlaceR",
    "MC.C04_roundtrip"
   ],
   "note": ""
  },
  {
   "property": "C05",
   "status": "proved",
   "theorems": [
    "MC.C05_renumber",
    "MC.C05_renumberR",
    "MC.C05_inverse",
    "MC.C05_scatter_is_gather",
    "MC.C05_renumber_unchecked"
   ],
   "note": "C05_renumber_unchecked: invalid ids are not refused (out-of-bounds write)."
  },
  {
   "property": "C06",
   "status": "proved",
   "theorems": [
    "MC.C06_renumberAndReduce",
    "MC.C06_injective",
    "MC.C06_unchecked"
   ],
   "note": "C06_unchecked: a target past newNb is an out-of-bounds write."
  },
  {
   "property": "C07",
   "status": "proved",
   "theorems": [
    "MC.C07_invertO2N",
    "MC.C07_inverse",
    "MC.C07_involution",
    "MC.C07_invertN2O",
    "MC.C07_invertBis",
    "MC.C07_uninitialised"
   ],
   "note": "C07_uninitialised: ids never hit leave uninitialised cells in the result."
  },
  {
   "property": "C08",
   "status": "proved",
   "theorems": [
    "MC.C08_selectSafe",
    "MC.C08_select",
    "MC.C08_selectSlice",
    "MC.C08_selectSlice_unsafe",
    "MC.C08_subArray",
    "MC.C08_subArray_inverted"
   ],
   "note": "Findings: selectByTupleIdSafeSlice does not check its range, subArray does not refuse an inverted interval."
  },
  {
   "property": "C09",
   "status": "proved",
   "theorems": [
    "MC.C09_rank",
    "MC.C09_find",
    "MC.C09_find_duplicate"
   ],
   "note": ""
  },
  {
   "property": "C10",
   "status": "proved",
   "theorems": [
    "MC.C10_perm_per_level"
   ],
   "note": ""
  },
  {
   "property": "C11",
   "status": "proved",
   "theorems": [
    "MC.C11_surjective"
   ],
   "note": ""
  },
  {
   "property": "C12",
   "status": "proved",
   "theorems": [
    "MC.C12_union",
    "MC.C12_intersection"
   ],
   "note": ""
  },
  {
   "property": "C13",
   "status": "proved",
   "theorems": [
    "MC.C13_complement",
    "MC.C13_substraction",
    "MC.C13_substraction_optimized",
    "MC.C13_optimized_needs_part"
   ],
   "note": "C13_optimized_needs_part: without the inclusion the optimised version silently gives another result."
  },
  {
   "property": "C14",
   "status": "proved",
   "theorems": [
    "MC.C14_unique",
    "MC.C14_unique_runs",
    "MC.C14_unique_not_sorted",
    "MC.C14_unique_not_sorted_empty",
    "MC.C14_different_values",
    "MC.C14_has_unique_values"
   ],
   "note": "Finding: on an empty array buildUniqueNotSorted overflows a signed integer."
  },
  {
   "property": "C15",
   "status": "proved",
   "theorems": [
    "MC.C15_offsets_full",
    "MC.C15_delta_of_offsets",
    "MC.C15_offsets_of_delta",
    "MC.C15_offsets"
   ],
   "note": ""
  },
  {
   "property": "C16",
   "status": "proved",
   "theorems": [
    "MC.C16_explicit",
    "MC.C16_slice_on_scaled",
    "MC.C16_slice_on_scaled_throws"
   ],
   "note": ""
  },
  {
   "property": "C17",
   "status": "proved",
   "theorems": [
    "MC.C17_find_range"
   ],
   "note": ""
  },
  {
   "property": "C18",
   "status": "proved",
   "theorems": [
    "MC.C18_extract",
    "MC.C18_extract_sky",
    "MC.C18_extract_slice"
   ],
   "note": "C18_extract covers also ill-formed indices."
  },
  {
   "property": "C19",
   "status": "proved",
   "theorems": [
    "MC.C19_set_part",
    "MC.C19_same_idx",
    "MC.C19_repeated_overflow",
    "MC.C19_short_source"
   ],
   "note": "Findings: with repeated ids the result buffer is undersized; with too few source groups the source index is read out of bounds."
  },
  {
   "property": "C20",
   "status": "partial",
   "theorems": [
    "MC.C20_remove_partial",
    "MC.C20_offset_drops",
    "MC.C20_negative_offset"
   ],
   "note": "Proved for offsetForRemoval=0. For a positive offset the claim is false: the code drops the first elements of each group (C20_offset_drops)."
  },
  {
   "property": "C21",
   "status": "proved",
   "theorems": [
    "MC.C21_partition",
    "MC.C21_never_zero"
   ],
   "note": "Finding: elements of no group get a non zero id, contrary to the documentation."
  },
  {
   "property": "C22",
   "status": "proved",
   "theorems": [
    "MC.C22_occurrence_rank",
    "MC.C22_partition",
    "MC.C22_runs"
   ],
   "note": ""
  },
  {
   "property": "C23",
   "status": "proved",
   "theorems": [
    "MC.C23_fromNoInterlace",
    "MC.C23_toNoInterlace",
    "MC.C23_interlace_round_trip",
    "MC.C23_rearrange",
    "MC.C23_transpose",
    "MC.C23_changeNbOfComponents",
    "MC.C23_keepSelectedComponents",
    "MC.C23_reverse",
    "MC.C23_reversePerTuple",
    "MC.C23_circularPermutation",
    "MC.C23_circularPermutation_portable",
    "MC.C23_circularPermutation_overlap",
    "MC.C23_circularPermutationPerTuple"
   ],
   "note": "Finding: for left shifts by more than half of the array, the rotation uses std::copy with overlapping ranges, undefined by the standard (harmless with memmove)."
  },
  {
   "property": "C24",
   "status": "proved",
   "theorems": [
    "MC.C24_findIdForEach",
    "MC.C24_indicesOfSubPart",
    "MC.C24_buildPermutationArr",
    "MC.C24_buildPermutationArr_not_perm"
   ],
   "note": "C24_buildPermutationArr_not_perm: with repeated values the result need not be a permutation."
  },
  {
   "property": "C25",
   "status": "proved",
   "theorems": [
    "MC.C25_split",
    "MC.C25_sort_consecutive",
    "MC.C25_sort_complete",
    "MC.C25_sort_incomplete",
    "MC.C25_linked_list_to_list",
    "MC.C25_sort_each_pair",
    "MC.C25_sort_each_pair_short"
   ],
   "note": ""
  },
  {
   "property": "C26",
   "status": "proved",
   "theorems": [
    "MC.C26_assign",
    "MC.C26_takeRef",
    "MC.C26_assignRaw",
    "MC.C26_nullify",
    "MC.C26_history",
    "MC.C26_alive_iff",
    "MC.C26_no_leak",
    "MC.C26_threads",
    "MC.C26_assign_from_inside",
    "MC.C26_assign_same_raw_leaks",
    "MC.C26_cycle_leaks",
    "MC.C26_threads_need_ownership"
   ],
   "note": "Findings: MCAuto::operator= releases the old object before taking a reference on the new one, so p = p->child is undefined when p is the last owner; assigning the raw pointer already held leaks a reference."
  },
  {
   "property": "C27",
   "status": "proved",
   "theorems": [
    "MC.C27_heap_size",
    "MC.C27_heap_size_of_objs",
    "MC.C27_progeny",
    "MC.C27_is_in_progeny",
    "MC.C27_cycle_counted_twice",
    "MC.C27_progeny_repeats"
   ],
   "note": "Findings: an object lying on a cycle is counted twice by getHeapMemorySize; getAllTheProgeny may list an object several times although its documentation says once."
  },
  {
   "property": "C28",
   "status": "proved",
   "theorems": [
    "MC.C28_updateTime",
    "MC.C28_step",
    "MC.C28_overseer",
    "MC.C28_overseer_quiet",
    "MC.C28_bottom_up",
    "MC.C28_deep_modification_missed",
    "MC.C28_deep_modification_seen"
   ],
   "note": "The original claim for parts of parts is refuted by C28_deep_modification_missed; the property is stated for direct parts and bottom-up updates."
  },
  {
   "property": "C29",
   "status": "proved",
   "theorems": [
    "MC.C29_toDAI",
    "MC.C29_simplify",
    "MC.C29_compose",
    "MC.C29_plus",
    "MC.C29_equal_serialize",
    "MC.C29_number",
    "MC.C29_decreasing_slices_break",
    "MC.C29_compose_out_of_range",
    "MC.C29_serialize_twice"
   ],
   "note": "Findings: a simplified decreasing list has no getNumberOfElems; out-of-range compositions are silently accepted or undefined in two of the cases."
  },
  {
   "property": "C30",
   "status": "proved",
   "theorems": [
    "MC.C30_range",
    "MC.C30_is_range",
    "MC.C30_is_iota"
   ],
   "note": ""
  },
  {
   "property": "C31",
   "status": "proved",
   "theorems": [
    "MC.C31_split"
   ],
   "note": ""
  },
  {
   "property": "C32",
   "status": "proved",
   "theorems": [
    "MC.C32_monotonic"
   ],
   "note": ""
  },
  {
   "property": "C33",
   "status": "proved",
   "theorems": [
    "MC.C33_o2n",
    "MC.C33_first_unchecked",
    "MC.C33_unsorted_group"
   ],
   "note": "Findings: the first element of a group is used unchecked; with an unsorted group the result is not onto."
  },
  {
   "property": "C34",
   "status": "proved",
   "theorems": [
    "MC.C34_put_into_skyline",
    "MC.C34_aggregate",
    "MC.C34_aggregate_indexes",
    "MC.C34_aggregate_indexes_throws"
   ],
   "note": ""
  },
  {
   "property": "C35",
   "status": "proved",
   "theorems": [
    "MC.C35_transform",
    "MC.C35_transform_not_atomic",
    "MC.C35_transformR",
    "MC.C35_changeValue",
    "MC.C35_switched"
   ],
   "note": "Finding: a failing transformWithIndArr leaves the array partly transformed."
  },
  {
   "property": "C36",
   "status": "proved",
   "theorems": [
    "MC.C36_ids_equal",
    "MC.C36_sequence",
    "MC.C36_sequence_empty",
    "MC.C36_ids_equal_tuple",
    "MC.C36_first_equal_tuple"
   ],
   "note": ""
  },
  {
   "property": "C37",
   "status": "proved",
   "theorems": [
    "MC.C37_ranges_in_list",
    "MC.C37_reads_past_end",
    "MC.C37_decreasing_never_ends"
   ],
   "note": "Findings: on data outside the documented conditions the scan reads past the end of the list or never ends."
  },
  {
   "property": "C38",
   "status": "proved",
   "theorems": [
    "MC.C38_pairs_to_groups",
    "MC.C38_groups_overlap"
   ],
   "note": "Finding: the returned groups may overlap although the documentation feeds them to ConvertIndexArrayToO2N, which needs disjoint groups."
  },
  {
   "property": "C39",
   "status": "proved",
   "theorems": [
    "MC.C39_cells",
    "MC.C39_nodes",
    "MC.C39_number_of_cells",
    "MC.C39_flat_first_axis",
    "MC.C39_large_grids"
   ],
   "note": "Findings: ids are accumulated in a 32 bit int (wrong from 2^31 cells on, even with 64 bit ids); with one node on the first axis the cells of a surface in space are not numbered injectively and getLocationFromCellId divides by zero."
  },
  {
   "property": "C40",
   "status": "proved",
   "theorems": [
    "MC.C40_getNodeIdsOfCell",
    "MC.C40_corners",
    "MC.C40_build1GT",
    "MC.C40_build1GT_flat",
    "MC.C40_flat_first_axis"
   ],
   "note": "Findings: the unstructured version of the mesh has cells oriented opposite to getNodeIdsOfCell; getNodeIdsOfCell divides by zero when the first axis is flat."
  },
  {
   "property": "C41",
   "status": "proved",
   "theorems": [
    "MC.C41_buildExplicitIds",
    "MC.C41_switchOn",
    "MC.C41_extractBool",
    "MC.C41_extractField",
    "MC.C41_mapPartOf",
    "MC.C41_isPartStructured",
    "MC.C41_isPartStructured_throws",
    "MC.C41_negative_ids",
    "MC.C41_part_not_checked"
   ],
   "note": "Findings: negative ids are accepted by IsPartStructured beyond one axis; SwitchOnIdsFrom and the Extract methods read or write out of bounds on boxes which do not fit."
  },
  {
   "property": "C42",
   "status": "proved",
   "theorems": [
    "MC.C42_intersectRanges",
    "MC.C42_intersectRanges_throws",
    "MC.C42_areRangesIntersect",
    "MC.C42_empty_intersects",
    "MC.C42_fromGlobal",
    "MC.C42_translate",
    "MC.C42_findTranslation",
    "MC.C42_ghost"
   ],
   "note": "Finding: an empty range strictly inside another one is said to intersect it."
  },
  {
   "property": "C43",
   "status": "proved",
   "theorems": [
    "MC.C43_findMinimalPart",
    "MC.C43_throws"
   ],
   "note": ""
  },
  {
   "property": "C44",
   "status": "proved",
   "theorems": [
    "MC.C44_reverse",
    "MC.C44_flat",
    "MC.C44_degenerate"
   ],
   "note": "Findings: undefined on an empty axis; the single-node mesh, which has no cell, lists a cell 0."
  },
  {
   "property": "C45",
   "status": "proved",
   "theorems": [
    "MC.C45_faces"
   ],
   "note": ""
  },
  {
   "property": "C46",
   "status": "proved",
   "theorems": [
    "MC.C46_signature"
   ],
   "note": ""
  },
  {
   "property": "C47",
   "status": "proved",
   "theorems": [
    "MC.C47_closed_surface",
    "MC.C47_edges",
    "MC.C47_hexa27_no_edges",
    "MC.C47_edges_2D",
    "MC.C47_polyhedron_sons"
   ],
   "note": "Finding: HEXA27 has no edge table, its number of edges is garbage."
  },
  {
   "property": "C48",
   "status": "proved",
   "theorems": [
    "MC.C48_invert_2D",
    "MC.C48_invert_3D",
    "MC.C48_invert_seg2",
    "MC.C48_seg3_middle_moved",
    "MC.C48_wrong_length",
    "MC.C48_change_orientation_2D",
    "MC.C48_centre_overflow",
    "MC.C48_polyline_not_reversed"
   ],
   "note": "Findings: C48_seg3_middle_moved, C48_centre_overflow, C48_polyline_not_reversed."
  },
  {
   "property": "C49",
   "status": "proved",
   "theorems": [
    "MC.C49_orientation_2D",
    "MC.C49_orientation_1D",
    "MC.C49_quadratic_never_true"
   ],
   "note": "Finding: C49_quadratic_never_true."
  },
  {
   "property": "C50",
   "status": "proved",
   "theorems": [
    "MC.C50_extrude_2D"
   ],
   "note": ""
  },
  {
   "property": "C51",
   "status": "proved",
   "theorems": [
    "MC.C51_history",
    "MC.C51_observers",
    "MC.C51_types_sorted",
    "MC.C51_negative_cell"
   ],
   "note": "Finding: a negative cell id is not checked."
  },
  {
   "property": "C52",
   "status": "proved",
   "theorems": [
    "MC.C52_checkConsistency",
    "MC.C52_checkGeomConsistency",
    "MC.C52_geom_refuses_polyhedra",
    "MC.C52_bad_index",
    "MC.C52_geom_null"
   ],
   "note": "Findings: checkGeomConsistency refuses valid polyhedra; bad index arrays are followed; null arrays dereferenced."
  },
  {
   "property": "C53",
   "status": "proved",
   "theorems": [
    "MC.C53_reverse",
    "MC.C53_reverse_nodup",
    "MC.C53_unchecked_node"
   ],
   "note": "Finding: node ids >= number of nodes write outside."
  },
  {
   "property": "C54",
   "status": "proved",
   "theorems": [
    "MC.C54_computeNodeIdsAlg",
    "MC.C54_computeFetchedNodeIds",
    "MC.C54_getNodeIdsInUse",
    "MC.C54_counts"
   ],
   "note": ""
  },
  {
   "property": "C55",
   "status": "proved",
   "theorems": [
    "MC.C55_renumberNodesInConn",
    "MC.C55_shift",
    "MC.C55_shift_back",
    "MC.C55_duplicate",
    "MC.C55_zipCoords"
   ],
   "note": ""
  },
  {
   "property": "C56",
   "status": "proved",
   "theorems": [
    "MC.C56_renumberCells",
    "MC.C56_renumberCells_check",
    "MC.C56_renumberCells_repeated",
    "MC.C56_buildPart",
    "MC.C56_buildPartSlice",
    "MC.C56_buildPart_twice",
    "MC.C56_setPart"
   ],
   "note": "Finding: renumberCells without check reads uninitialised memory on repeated values."
  },
  {
   "property": "C57",
   "status": "proved",
   "theorems": [
    "MC.C57_policies",
    "MC.C57_equivalence",
    "MC.C57_refused",
    "MC.C57_policy7_face",
    "MC.C57_policy7_edge",
    "MC.C57_policy89",
    "MC.C57_policy0_ignores_type",
    "MC.C57_policy1_quadratic"
   ],
   "note": "Findings: policy 0 ignores types; policy 1 is wrong on quadratic faces."
  },
  {
   "property": "C58",
   "status": "proved",
   "theorems": [
    "MC.C58_findCommonCells",
    "MC.C58_policy1_3D",
    "MC.C58_lone_polyhedron",
    "MC.C58_policy7_wrong_id"
   ],
   "note": "Findings: a lone polyhedron is reported as a duplicate; policy 7 returns id+1 for reversed cells and may write outside its array."
  },
  {
   "property": "C59",
   "status": "proved",
   "theorems": [
    "MC.C59_zip",
    "MC.C59_zip_all"
   ],
   "note": ""
  },
  {
   "property": "C60",
   "status": "proved",
   "theorems": [
    "MC.C60_mergeSameCoords",
    "MC.C60_fuse",
    "MC.C60_areCellsIncludedIn",
    "MC.C60_missing_cell_valid_id",
    "MC.C60_empty_this",
    "MC.C60_policy7"
   ],
   "note": "Findings: ids of missing cells may be valid ids; empty mesh throws; policy 7 inclusion is always wrong."
  },
  {
   "property": "C61",
   "status": "proved",
   "theorems": [
    "MC.C61_spread",
    "MC.C61_bad_seed",
    "MC.C61_negative_neighbour"
   ],
   "note": "Finding: negative neighbour ids, documented as ignored, are read out of bounds."
  },
  {
   "property": "C62",
   "status": "proved",
   "theorems": [
    "MC.C62_partition"
   ],
   "note": ""
  },
  {
   "property": "C63",
   "status": "proved",
   "theorems": [
    "MC.C63_descending",
    "MC.C63_mutual",
    "MC.C63_sets_of_nodes",
    "MC.C63_degenerate"
   ],
   "note": "Names of meshes and the sharing of coordinates are not modelled. NORM_POLYL cells are out of scope of the theorem."
  },
  {
   "property": "C64",
   "status": "proved",
   "theorems": [
    "MC.C64_signed",
    "MC.C64_linear_2D",
    "MC.C64_linear_3D",
    "MC.C64_quadratic_signs"
   ],
   "note": "Finding: signs are meaningless for quadratic 3D cells."
  },
  {
   "property": "C65",
   "status": "proved",
   "theorems": [
    "MC.C65_edges_3D",
    "MC.C65_dimension",
    "MC.C65_micro_edges",
    "MC.C65_micro_edges_3D"
   ],
   "note": "Finding: explodeMeshIntoMicroEdges always throws on 3D meshes, documented as supported."
  },
  {
   "property": "C66",
   "status": "proved",
   "theorems": [
    "MC.C66_adv",
    "MC.C66_neighbours",
    "MC.C66_symmetric",
    "MC.C66_zones",
    "MC.C66_repeated"
   ],
   "note": "Proved for all meshes; the finding C66_repeated gives the case of a neighbour listed twice."
  },
  {
   "property": "C67",
   "status": "proved",
   "theorems": [
    "MC.C67_skin",
    "MC.C67_cells_on_boundary",
    "MC.C67_closed_surface"
   ],
   "note": "Proved for all meshes; C67_closed_surface is a finding on buildBoundaryMesh."
  },
  {
   "property": "C68",
   "status": "proved",
   "theorems": [
    "MC.C68_neighbours_1D",
    "MC.C68_neighbours_2D",
    "MC.C68_neighbours_3D",
    "MC.C68_dimension",
    "MC.C68_quadratic"
   ],
   "note": "Proved for linear cells; the finding C68_quadratic shows the result is wrong on quadratic cells."
  },
  {
   "property": "C69",
   "status": "proved",
   "theorems": [
    "MC.C69_enlarged",
    "MC.C69_cells_from_nodes",
    "MC.C69_share_node",
    "MC.C69_index_length"
   ],
   "note": "Proved for all meshes."
  },
  {
   "property": "C70",
   "status": "proved",
   "theorems": [
    "MC.C70_lying_on_nodes",
    "MC.C70_lying_on",
    "MC.C70_order_of_types"
   ],
   "note": "Proved; C70_order_of_types shows why the hypothesis on the types is needed."
  },
  {
   "property": "C71",
   "status": "proved",
   "theorems": [
    "MC.C71_distribution",
    "MC.C71_consecutive",
    "MC.C71_order"
   ],
   "note": ""
  },
  {
   "property": "C72",
   "status": "proved",
   "theorems": [
    "MC.C72_levels",
    "MC.C72_renum_array",
    "MC.C72_sort",
    "MC.C72_error_type",
    "MC.C72_rearrange",
    "MC.C72_rearrange_endless",
    "MC.C72_rearrange_endless_witness"
   ],
   "note": "The finding is a property of the code as it is: the loop restarts the search after the last cell of the current type and can alternate for ever."
  },
  {
   "property": "C73",
   "status": "proved",
   "theorems": [
    "MC.C73_split",
    "MC.C73_split_throws",
    "MC.C73_check",
    "MC.C73_check_throws",
    "MC.C73_check_bad_profile",
    "MC.C73_round_trip",
    "MC.C73_grouped_sorted",
    "MC.C73_counts_ignored",
    "MC.C73_check_unsafe"
   ],
   "note": ""
  },
  {
   "property": "C74",
   "status": "proved",
   "theorems": [
    "MC.C74_splitByType",
    "MC.C74_keepIds",
    "MC.C74_keepIds_unchecked",
    "MC.C74_convertArray",
    "MC.C74_keepSpecified",
    "MC.C74_aggregate",
    "MC.C74_aggregate_throws"
   ],
   "note": ""
  },
  {
   "property": "C75",
   "status": "proved",
   "theorems": [
    "MC.C75_toStatic",
    "MC.C75_sgtNew",
    "MC.C75_toDynamic",
    "MC.C75_dgtNew",
    "MC.C75_sgtBuild",
    "MC.C75_sgt_round_trip",
    "MC.C75_dgtBuild",
    "MC.C75_dgtBuild_unpacked",
    "MC.C75_dgt_round_trip",
    "MC.C75_aggregateToUMesh",
    "MC.C75_aggregate_packed",
    "MC.C75_aggregate_throws"
   ],
   "note": ""
  },
  {
   "property": "C76",
   "status": "proved",
   "theorems": [
    "MC.C76_sgtPart",
    "MC.C76_sgtPartSlice",
    "MC.C76_dgtPart",
    "MC.C76_sgtRenumber",
    "MC.C76_dgtRenumber",
    "MC.C76_dgtRenumber_unpacked",
    "MC.C76_renumber_check",
    "MC.C76_packed",
    "MC.C76_sgtMergeSame",
    "MC.C76_sgtMerge",
    "MC.C76_dgtMergeSame",
    "MC.C76_dgtMerge"
   ],
   "note": ""
  },
  {
   "property": "C77",
   "status": "proved",
   "theorems": [
    "MC.C77_boxes",
    "MC.C77_epsilon",
    "MC.C77_points",
    "MC.C77_discrete"
   ],
   "note": "exact over an ordered ring; roundings of doubles are not modelled"
  },
  {
   "property": "C78",
   "status": "proved",
   "theorems": [
    "MC.C78_point_box",
    "MC.C78_box_box",
    "MC.C78_dst",
    "MC.C78_dst_closest",
    "MC.C78_dst_points_lost",
    "MC.C78_candidates",
    "MC.C78_closest_kept",
    "MC.C78_stale_candidates",
    "MC.C78_blocks",
    "MC.C78_blocks_points_lost",
    "MC.C78_compact_roundtrip",
    "MC.C78_deserialize_wrong"
   ],
   "note": "for later points the result may hold further boxes: see the finding C78_stale_candidates"
  },
  {
   "property": "C79",
   "status": "proved",
   "theorems": [
    "MC.C79_segment2",
    "MC.C79_segment3",
    "MC.C79_triangle",
    "MC.C79_triangle_too_far",
    "MC.C79_triangle_too_close",
    "MC.C79_triangle_small"
   ],
   "note": "exact arithmetic; the two conditions on the triangle are needed, as the findings show"
  },
  {
   "property": "C80",
   "status": "proved",
   "theorems": [
    "MC.C80_boxes",
    "MC.C80_boxes_throws",
    "MC.C80_curve",
    "MC.C80_surface",
    "MC.C80_throws",
    "MC.C80_curve_type",
    "MC.C80_not_first_cell",
    "MC.C80_point_cell_lost",
    "MC.C80_surface_too_far"
   ],
   "note": "segments in the plane and triangles in the space; quadrangles and polygons are a parameter of the model"
  },
  {
   "property": "C81",
   "status": "proved",
   "theorems": [
    "MC.C81_transfer",
    "MC.C81_reverse",
    "MC.C81_maximum",
    "MC.C81_uniform",
    "MC.C81_extensive_conservation",
    "MC.C81_intensive_conservation",
    "MC.C81_extensive_maximum",
    "MC.C81_global_sum",
    "MC.C81_refused",
    "MC.C81_reverse_refused",
    "MC.C81_accepted",
    "MC.C81_global_mean_lost",
    "MC.C81_target_not_checked",
    "MC.C81_source_not_checked"
   ],
   "note": "exact arithmetic; the crude matrix is an input"
  },
  {
   "property": "C82",
   "status": "proved",
   "theorems": [
    "MC.C82_small_removed",
    "MC.C82_small_removed_relative",
    "MC.C82_small_removed_then_transfer",
    "MC.C82_max",
    "MC.C82_transposed",
    "MC.C82_transposed_twice",
    "MC.C82_extruded",
    "MC.C82_removed_after_transfer"
   ],
   "note": "exact arithmetic"
  },
  {
   "property": "C83",
   "status": "proved",
   "theorems": [
    "MC.C83_constant",
    "MC.C83_finding_point",
    "MC.C83_finding_point_alone",
    "MC.C83_finding_sign_call",
    "MC.C83_finding_nested",
    "MC.C83_finding_signs",
    "MC.C83_finding_comparison",
    "MC.C83_finding_fourteen"
   ],
   "note": "floating point numbers are an arbitrary type with arbitrary operations; two laws are asked: the opposite of the opposite, and the text of a natural number is read as this number"
  },
  {
   "property": "C84",
   "status": "proved",
   "theorems": [
    "MC.C84_named",
    "MC.C84_named_unsafe",
    "MC.C84_safe_rejects",
    "MC.C84_safe_throws",
    "MC.C84_safe_same",
    "MC.C84_unknown",
    "MC.C84_too_long",
    "MC.C84_alphabetical",
    "MC.C84_one",
    "MC.C84_one_constant",
    "MC.C84_one_two",
    "MC.C84_finding_message",
    "MC.C84_finding_unit_alone"
   ],
   "note": "same arithmetic as C83"
  },
  {
   "property": "C85",
   "status": "proved",
   "theorems": [
    "MC.C85_inverse",
    "MC.C85_grid",
    "MC.C85_counts",
    "MC.C85_components",
    "MC.C85_whole_components",
    "MC.C85_refused",
    "MC.C85_sent",
    "MC.C85_sent_sorted",
    "MC.C85_finding_other_rank",
    "MC.C85_finding_min_max",
    "MC.C85_finding_order",
    "MC.C85_finding_empty"
   ],
   "note": "Findings: localToGlobal of another rank than the calling one is wrong, getLocalArrayMinMax reads outside the offsets when the components are split, a group in another order than the world ranks is received in another order, globalToLocal divides by zero on an empty grid direction."
  },
  {
   "property": "C86",
   "status": "proved",
   "theorems": [
    "MC.C86_exchange",
    "MC.C86_refused",
    "MC.C86_finding_three_processors",
    "MC.C86_finding_world",
    "MC.C86_finding_order"
   ],
   "note": "Findings: with fewer than four processors the printed arrays are read outside their bounds; when the groups do not cover the world in the low ranks, counts in world ranks meet a communicator in union ranks; a group in another order breaks the exchange."
  },
  {
   "property": "C87",
   "status": "proved",
   "theorems": [
    "MC.C87_pairs",
    "MC.C87_shared",
    "MC.C87_refused"
   ],
   "note": "The three algorithms are also proved on every pairing, not only on the ones from boxes."
  },
  {
   "property": "C88",
   "status": "proved",
   "theorems": [
    "MC.C88_exchange"
   ],
   "note": "The work sharings of C87 satisfy the hypotheses."
  },
  {
   "property": "C89",
   "status": "proved",
   "theorems": [
    "MC.C89_transfer",
    "MC.C89_constant",
    "MC.C89_sharing"
   ],
   "note": "The matrices of the pairs are parameters; the work sharings of C87 satisfy the hypotheses on the lists of pairs. Only the nature IntensiveMaximum (the one whose denominators the class computes for the transfer). The cells are exact numbers: no rounding, and a division by zero gives zero instead of a value which is not a number."
  },
  {
   "property": "C90",
   "status": "proved",
   "theorems": [
    "MC.C90_patches",
    "MC.C90_never_refused",
    "MC.C90_refused",
    "MC.C90_finding_hole_axis",
    "MC.C90_finding_dim1",
    "MC.C90_finding_min0",
    "MC.C90_finding_refused",
    "MC.C90_finding_dissect"
   ],
   "note": "efficiencies are in an ordered field; the addition of the patches themselves (addPatch) is not part of the model. Findings: FindHole receives the axis by value, so that a hole of one axis cuts another axis; DissectBigPatch compares twice the whole patch and always cuts after the first layers; dimension one and a smallest length of 0 read out of range"
  },
  {
   "property": "C91",
   "status": "proved",
   "theorems": [
    "MC.C91_condense",
    "MC.C91_condenseGhost",
    "MC.C91_spread",
    "MC.C91_spreadGhost",
    "MC.C91_spreadGhostZone",
    "MC.C91_source",
    "MC.C91_roundtrip",
    "MC.C91_refused",
    "MC.C91_finding_3D",
    "MC.C91_finding_empty",
    "MC.C91_finding_outside",
    "MC.C91_finding_wide"
   ],
   "note": "tuples are single values of a commutative monoid, sums are exact. Findings: SpreadCoarseToFine uses the third factor for the second axis in dimension 3 (fine cells left unset or accesses out of the array), divides by zero for an empty range; a range out of the coarse grid is not refused; with ghosts wider than the factor every layer receives the first coarse layer"
  },
  {
   "property": "C92",
   "status": "proved",
   "theorems": [
    "MC.C92_groups_arr",
    "MC.C92_groups_arr_refused",
    "MC.C92_groups_on_family",
    "MC.C92_groups_on_lev",
    "MC.C92_new_name",
    "MC.C92_finding_no_array",
    "MC.C92_finding_prefix"
   ],
   "note": "the maps are lists with increasing keys. Findings: asking for the cells of a group at a level without family array uses a null pointer; the second attempt of CreateNameNotIn puts control characters in front of the name"
  },
  {
   "property": "C93",
   "status": "proved",
   "theorems": [
    "MC.C93_add_group",
    "MC.C93_absent_array",
    "MC.C93_add_group_refused",
    "MC.C93_finding_used_id",
    "MC.C93_finding_cut_shared"
   ],
   "note": "consistent: groups lie on existing families, family numbers all different, no array value larger in absolute value than the numbers of the families (0 apart), levels not empty. Findings: the new numbers are above the maximum of the arrays and not of their absolute values, so a number in use can be chosen; a family of a group used at two levels and cut at one of them makes the group lose its entities of the other level"
  },
  {
   "property": "C94",
   "status": "proved",
   "theorems": [
    "MC.C94_remove_empty_groups",
    "MC.C94_remove_group",
    "MC.C94_change_group_name",
    "MC.C94_change_family_id",
    "MC.C94_change_family_name",
    "MC.C94_remove_family",
    "MC.C94_remove_orphan_families",
    "MC.C94_remove_orphan_no_array",
    "MC.C94_remove_orphan_groups",
    "MC.C94_remove_unreferred",
    "MC.C94_rearrange",
    "MC.C94_remove_group_at_level",
    "MC.C94_create_group_on_all",
    "MC.C94_zip",
    "MC.C94_assign_names",
    "MC.C94_finding_rearrange_no_array",
    "MC.C94_finding_remove_at_level",
    "MC.C94_finding_zip_twice"
   ],
   "note": "removeFamily, removeOrphanFamilies, removeOrphanGroups, changeFamilyName and rearrangeFamilies also need groups without repeated family names, since they edit the first occurrence only. Findings: zipFamilies itself leaves the kept family twice in its groups, after which changeFamilyName makes the group unreadable; without any family array rearrangeFamilies and removeOrphanFamilies empty the mesh of its groups; removeGroupAtLevel takes away the entities of other levels that use the same family"
  },
  {
   "property": "C95",
   "status": "proved",
   "theorems": [
    "MC.C95_set_groups",
    "MC.C95_set_groups_refused",
    "MC.C95_finding_empty_group",
    "MC.C95_finding_name_reused",
    "MC.C95_keep_on_levels",
    "MC.C95_finding_zero_id",
    "MC.C95_finding_ensure_different",
    "MC.C95_normalize_med_file",
    "MC.C95_normalize_trio",
    "MC.C95_normalize_refused",
    "MC.C95_finding_shared_family",
    "MC.C95_finding_unused_family"
   ],
   "note": "setGroupsAtLevel is modelled without renumbering (renum = false). Findings: a group given without entities is not created; a family that has the name of a new one (Family_-3 with another id) is taken over and its groups change; keepFamIdsOnlyOnLevs gives the id 0 to a new family when all ids are negative, and the entities without family enter the group; ensureDifferentFamIdsPerLevel never finds an id used at two levels, so that the normalisations, that announce to refuse it, take the entities of one of the levels away from the group; a family of a group that no entity has keeps its id, that may be given to others"
  },
  {
   "property": "C96",
   "status": "proved",
   "theorems": [
    "MC.C96_reference_cells_are_recognised",
    "MC.C96_shape_functions_sum_to_one",
    "MC.C96_points_follow_affine_maps",
    "MC.C96_points_of_an_image_of_the_reference_cell",
    "MC.C96_gauss_point_on_a_node",
    "MC.C96_derivatives",
    "MC.C96_derivatives_sum_to_zero",
    "MC.C96_apex_derivatives_pyra5",
    "MC.C96_one_location_for_each_type",
    "MC.C96_finding_tri6",
    "MC.C96_finding_point1",
    "MC.C96_finding_overrun",
    "MC.C96_finding_pyra13"
   ],
   "note": "double is any ordered field, no rounding; the literal 0.3333333333333333 is read as 1/3. Findings: TRIA6A_REF repeats (-1,1) in the place of (-1,0) and its last shape function is (1+y)^2 in the place of (1+x)(1+y); with several Gauss points on NORM_POINT1 only the first has the value 1; with fewer reference nodes than the type has, arrays are overrun before the check; the derivatives of the pyramids with 13 nodes at the apex are wrong"
  },
  {
   "property": "C97",
   "status": "proved",
   "theorems": [
    "MC.C97_inside_is_the_convex_hull",
    "MC.C97_default_coordinates",
    "MC.C97_barycenter",
    "MC.C97_adapted_point",
    "MC.C97_adapt_refused",
    "MC.C97_normalized_coordinates",
    "MC.C97_normalized_refused",
    "MC.C97_convert_to_linear",
    "MC.C97_convert_refused",
    "MC.C97_conversion_keeps_the_points",
    "MC.C97_finding_triangle_barycenter",
    "MC.C97_finding_pyramid_base",
    "MC.C97_finding_adapted_triangle",
    "MC.C97_finding_not_the_closest",
    "MC.C97_finding_convert"
   ],
   "note": "double is any ordered field, no rounding. Findings: the barycenter of the default triangle is the middle of an edge; pyramids have no lower bound; points beyond the longest edge of the default triangle are not brought back to the cell; for the other triangle the point found there is not the closest; the first triangle with 6 nodes is only recognised with a repeated node, segments with 4 nodes are not converted"
  },
  {
   "property": "C98",
   "status": "proved",
   "theorems": [
    "MC.C98_volumes_follow_affine_maps",
    "MC.C98_areas_follow_affine_maps",
    "MC.C98_lengths_follow_affine_maps",
    "MC.C98_inversion_changes_the_sign",
    "MC.C98_inversion_keeps_areas_in_space",
    "MC.C98_area_of_a_polygon",
    "MC.C98_area_from_any_node",
    "MC.C98_areas_add",
    "MC.C98_triangles_and_quadrangles_are_polygons",
    "MC.C98_areas_in_space_follow_similarities",
    "MC.C98_lengths_follow_similarities",
    "MC.C98_triangle_put_in_space",
    "MC.C98_field_of_measures",
    "MC.C98_measures_of_a_part",
    "MC.C98_cell_and_its_faces",
    "MC.C98_warped_cells",
    "MC.C98_faces_in_any_order",
    "MC.C98_volumes_add",
    "MC.C98_finding_quadrangles_in_space",
    "MC.C98_finding_polygons_in_space",
    "MC.C98_finding_open_polyhedra"
   ],
   "note": "double is any field, no rounding; sqrt is any function which is a square root; arcs of circle (quadratic cells of the plane) are not interpreted. Findings: areas of quadrangles and polygons of the space which are not convex are wrong and depend on the first node (sum of absolute values); the volume of a polyhedron whose surface is not closed depends on the origin"
  },
  {
   "property": "C99",
   "status": "proved",
   "theorems": [
    "MC.C99_cells_of_simplexize",
    "MC.C99_simplexize_refuses",
    "MC.C99_areas_of_the_triangles",
    "MC.C99_areas_of_the_triangles_in_space",
    "MC.C99_volumes_of_the_tetrahedra",
    "MC.C99_volumes_when_faces_are_plane",
    "MC.C99_measures_are_shared",
    "MC.C99_same_nodes",
    "MC.C99_only_simplices",
    "MC.C99_shares_of_a_parallelepiped",
    "MC.C99_cells_as_polygons",
    "MC.C99_cells_as_polyhedra",
    "MC.C99_cells_with_faces",
    "MC.C99_polygons_keep_areas",
    "MC.C99_polyhedra_keep_volumes",
    "MC.C99_faces_are_kept",
    "MC.C99_convert_refuses",
    "MC.C99_convert_all",
    "MC.C99_finding_first_diagonal_in_space",
    "MC.C99_finding_warped_hexahedra",
    "MC.C99_finding_quadratic_cells",
    "MC.C99_finding_cells_with_a_middle",
    "MC.C99_finding_types_after_exception",
    "MC.C99_finding_one_face",
    "MC.C99_finding_no_cells"
   ],
   "note": "Cells to cut must have the number of nodes of their type. Findings: despite its name simplexize leaves prisms, pyramids, polygons and quadratic cells; quadratic cells of dimension 3 become polyhedra whose faces go through corners then middles, with another volume; TRI7 and QUAD9 become quadratic polygons with an odd number of nodes, for which getMeasureField throws; after an exception in dimension 2 the set of types is stale; a polyhedron with one face overflows the buffer by one value; convertAllToPoly on no cell takes the address of the first element of an empty vector"
  },
  {
   "property": "C100",
   "status": "proved",
   "theorems": [
    "MC.C100_matrix",
    "MC.C100_exact",
    "MC.C100_target_covered",
    "MC.C100_source_covered",
    "MC.C100_integral_conserved",
    "MC.C100_sum_conserved",
    "MC.C100_refused",
    "MC.C100_finding_zero_precision",
    "MC.C100_finding_small_cells"
   ],
   "note": "Numbers are in an ordered field, roundings are left out. The number of turns of the loops is a parameter, shown to be bounded by the numbers of coordinates. The proofs for the fields go through C81. Findings: with a precision of zero the computation never ends as soon as a source cell and a target cell end at the same place; with cells smaller than the precision coefficients can be negative."
  },
  {
   "property": "C101",
   "status": "proved",
   "theorems": [
    "MC.C101_cells_of_points",
    "MC.C101_test_in_the_plane",
    "MC.C101_triangle_in_the_plane",
    "MC.C101_convex_cells_of_the_plane",
    "MC.C101_meshes_of_the_plane",
    "MC.C101_test_in_space",
    "MC.C101_convex_cells_of_the_space",
    "MC.C101_tetrahedra",
    "MC.C101_meshes_of_the_space",
    "MC.C101_meshes_of_the_line",
    "MC.C101_one_cell",
    "MC.C101_finding_tolerance_is_an_area",
    "MC.C101_finding_node_of_the_line_in_no_cell",
    "MC.C101_finding_candidates_with_an_absolute_tolerance",
    "MC.C101_finding_face_forgotten",
    "MC.C101_finding_not_the_smallest_id"
   ],
   "note": "Polygons and quadratic cells of the plane (QuadraticPolygon::isInOrOut2) are a parameter of the model. For convex cells of the space other than tetrahedra the theorem says that no cell is missed, and C101_test_in_space says exactly which points are accepted. Findings: in the plane the tolerance, documented as relative to the size of the cell, is compared with an area; on the line with a null tolerance a node common to two segments is in no cell; in the space the test tolerance is relative but the search of the candidates uses an absolute one; with a null tolerance a face of a polyhedron whose first three nodes are aligned is forgotten; getCellContainingPoint does not return the smallest id as documented."
  },
  {
   "property": "C102",
   "status": "proved",
   "theorems": [
    "MC.C102_center_of_mass_of_solids",
    "MC.C102_centers_of_solids_follow_affine_maps",
    "MC.C102_center_of_a_solid_is_inside",
    "MC.C102_center_whatever_the_order_of_faces",
    "MC.C102_cutting_a_polyhedron",
    "MC.C102_centers_of_simplices",
    "MC.C102_center_of_mass_of_polygons",
    "MC.C102_center_of_mass_of_polygons_in_space",
    "MC.C102_centers_of_polygons_follow_affine_maps",
    "MC.C102_center_from_any_node",
    "MC.C102_center_of_a_polygon_is_inside",
    "MC.C102_cutting_a_polygon",
    "MC.C102_array_of_centers",
    "MC.C102_centers_of_a_part",
    "MC.C102_means_of_the_nodes",
    "MC.C102_means_of_simplices",
    "MC.C102_refused_types",
    "MC.C102_finding_warped_faces",
    "MC.C102_finding_collapsed_hexahedra",
    "MC.C102_finding_small_polygons",
    "MC.C102_finding_refused_types"
   ],
   "note": "Exact arithmetic with a square root. The thresholds of the code (smallest double, 1e-12) are kept as parameters and appear in the regularity hypotheses. Findings: a warped face makes the center of a hexahedron depend on the origin and leave the cell; a face without area makes the loop stay on this face, so that a wedge given as a HEXA8 has a wrong center; small polygons of the space have their center at the origin; quadratic cells of dimension 3 have measures but no centers. The centers of the arcs (TRI6, QUAD8, quadratic polygons of the plane, SEG3) are parameters."
  },
  {
   "property": "C103",
   "status": "proved",
   "theorems": [
    "MC.C103_findCommonTuples",
    "MC.C103_components",
    "MC.C103_numbering",
    "MC.C103_none",
    "MC.C103_classes",
    "MC.C103_mergeNodes",
    "MC.C103_mergeNodes_separated",
    "MC.C103_mergeNodesCenter",
    "MC.C103_differentValues",
    "MC.C103_nearTuples",
    "MC.C103_included",
    "MC.C103_share",
    "MC.C103_share_throws",
    "MC.C103_discrete",
    "MC.C103_discrete_classes",
    "MC.C103_finding_overlap",
    "MC.C103_finding_not_done",
    "MC.C103_finding_twice",
    "MC.C103_finding_included",
    "MC.C103_finding_share"
   ],
   "note": "Exact arithmetic. Findings: groups overlap when closeness is not transitive; nodes closer than the precision may remain after mergeNodes, and a node may move by twice the precision; when areIncludedInMe returns false a tuple close to one of the array may have an id outside the array; tryToShareSameCoordsPermute accepts a mesh without nodes as the other mesh when the nodes of the mesh all coincide, and leaves cells with a node which does not exist."
  },
  {
   "property": "C104",
   "status": "proved",
   "theorems": [
    "MC.C104_getSimplePackSafe",
    "MC.C104_getSimplePackSafe_throws",
    "MC.C104_replaceSimplePack",
    "MC.C104_replacePack",
    "MC.C104_deletePack",
    "MC.C104_pushBackPack",
    "MC.C104_deleteSimplePack",
    "MC.C104_deleteSimplePacks",
    "MC.C104_replaceSimplePacks",
    "MC.C104_thresholdPerPack",
    "MC.C104_uniqueNotSortedByPack",
    "MC.C104_groupPacks",
    "MC.C104_groupPacks_throws",
    "MC.C104_AggregatePacks",
    "MC.C104_AggregatePacks_throws",
    "MC.C104_findPackIds",
    "MC.C104_history",
    "MC.C104_convertToPolyhedronConn",
    "MC.C104_cut_join",
    "MC.C104_BuildFromPolyhedronConn",
    "MC.C104_BuildFromPolyhedronConn_throws",
    "MC.C104_round_trip",
    "MC.C104_round_trip_conn",
    "MC.C104_two_level_throws",
    "MC.C104_finding_getSimplePackSafe",
    "MC.C104_finding_deletePack",
    "MC.C104_finding_pushBackPack",
    "MC.C104_finding_convert",
    "MC.C104_finding_replaceSimplePacks",
    "MC.C104_finding_deleteSimplePacks"
   ],
   "note": "Findings: the checks of the numbers let the number of packs (or of super packs) through, and the methods then read out of the index; deletePack and replacePack accept a pack number outside of the super pack and touch a pack of another one, deletePack then leaves a wrong super index; replaceSimplePacks sorts and removes repeated values also in the packs it does not replace; convertToPolyhedronConn writes out of its array when a super pack is empty; the copy towards the end in pushBackPack and replacePack is undefined for std::copy when the ranges overlap (taken as memmove here)."
  },
  {
   "property": "C105",
   "status": "proved",
   "theorems": [
    "MC.C105_sides",
    "MC.C105_degenerated_mesh",
    "MC.C105_flat_cells_removed",
    "MC.C105_degenerated_solid",
    "MC.C105_usual_cell_recognized",
    "MC.C105_polyhedron_keeps_nodes",
    "MC.C105_unpolyzed_mesh",
    "MC.C105_round_trip",
    "MC.C105_segments",
    "MC.C105_low_dimensions",
    "MC.C105_finding_longer_cell",
    "MC.C105_finding_next_cells_overwritten",
    "MC.C105_finding_point_cell",
    "MC.C105_finding_wrong_hexahedron",
    "MC.C105_finding_wrong_pentahedron",
    "MC.C105_finding_changed_but_false",
    "MC.C105_finding_center_lost",
    "MC.C105_finding_closed_segment"
   ],
   "note": "Findings: a degenerated cell of dimension 3 which is no usual cell becomes a polyhedron longer than the cell, written in place over the next cells or out of the array; a cell of dimension 3 reduced to a point makes the code write before an array; only one side face is compared, so a closed polyhedron with six quadrangles which is no hexahedron may become a hexahedron with other faces (also for pentahedra); unPolyze may return false though it has changed the connectivity; degenerated TRI7 and QUAD9 lose their center; a closed SEG3 counts as degenerated. Polygons with one node are excluded: a lone node counts as not degenerated."
  },
  {
   "property": "C106",
   "status": "proved",
   "theorems": [
    "MC.C106_zone_accepted",
    "MC.C106_zone_answers",
    "MC.C106_zone_hot_spots",
    "MC.C106_ids_on_time",
    "MC.C106_left_right",
    "MC.C106_joint",
    "MC.C106_long_slices_spread",
    "MC.C106_hot_spots",
    "MC.C106_hot_spots_answered",
    "MC.C106_different_meshes",
    "MC.C106_different_arrays",
    "MC.C106_is_equal",
    "MC.C106_serialized",
    "MC.C106_finding_one_field",
    "MC.C106_finding_assign",
    "MC.C106_finding_zero_tolerance",
    "MC.C106_finding_short_fields"
   ],
   "note": "Findings: with a single field the constructor leaves the tolerance uninitialised, so that asking or serializing the definition is undefined; assign does not copy the tolerance; with a tolerance of zero contiguous intervals are refused, and a definition on instants answers nowhere and is not equal to itself; fields shorter than the tolerance may go back in time, and then a hot spot may have no answer. Time units, the printing and the checks of the meshes (checkConsistencyLight) are not in the model."
  },
  {
   "property": "C107",
   "status": "proved",
   "theorems": [
    "MC.C107_names",
    "MC.C107_names_other",
    "MC.C107_names_once",
    "MC.C107_base",
    "MC.C107_prefixes",
    "MC.C107_names_factor",
    "MC.C107_interpret",
    "MC.C107_amount",
    "MC.C107_plain",
    "MC.C107_compatible",
    "MC.C107_convert",
    "MC.C107_convert_amount",
    "MC.C107_round_trip",
    "MC.C107_through",
    "MC.C107_incompatible",
    "MC.C107_si",
    "MC.C107_finding_factors",
    "MC.C107_finding_minute",
    "MC.C107_finding_unknown",
    "MC.C107_finding_celsius"
   ],
   "note": "Findings: one minute is 3600 seconds; the factors of S, H, P and St are not those of siemens, henry, poise and stokes; a text which is not interpreted is not compatible with itself; the offset of degrees Celsius is lost when they are multiplied, even by 1. Exponents (short) and whole numbers (int) do not overflow in the model, a factor divided by 0 (infinite in the code) is left out, factors are exact rational numbers. The theorem on texts asks names which begin with an ASCII letter (as C83), so texts with the micro or degree signs are covered by the theorem on names only. The theorems on conversions ask that what is added is 0 or the factor 1, which holds without a sign in front (plain)."
  },
  {
   "property": "C108",
   "status": "proved",
   "theorems": [
    "MC.C108_unique",
    "MC.C108_holds",
    "MC.C108_new",
    "MC.C108_rebuild",
    "MC.C108_rebuild_throws",
    "MC.C108_reshape",
    "MC.C108_transpose",
    "MC.C108_transpose_twice",
    "MC.C108_multiply",
    "MC.C108_multiply_throws",
    "MC.C108_matvec",
    "MC.C108_matvec_throws",
    "MC.C108_multiply_array",
    "MC.C108_add",
    "MC.C108_sub",
    "MC.C108_sum_throws",
    "MC.C108_associative",
    "MC.C108_transposed_product",
    "MC.C108_distributive",
    "MC.C108_add_sub",
    "MC.C108_finding_transpose_empty"
   ],
   "note": "Finding: a matrix without columns, though accepted by New, cannot be transposed. The array of a matrix may be shared with a shallow copy; this sharing, isEqual, the time stamps and roundings are not in the model."
  },
  {
   "property": "C109",
   "status": "proved",
   "theorems": [
    "MC.C109_inverse",
    "MC.C109_singular",
    "MC.C109_answer",
    "MC.C109_twice",
    "MC.C109_finding_singular_not_refused",
    "MC.C109_finding_empty"
   ],
   "note": "Findings: the answer of dgefa telling a zero pivot is not looked at, so that a matrix without inverse gives infinite values without exception; for n = 0 the array of pivots is written out of its bounds. Roundings are not in the model."
  },
  {
   "property": "C110",
   "status": "proved",
   "theorems": [
    "MC.C110_at_nodes",
    "MC.C110_linear",
    "MC.C110_matrix",
    "MC.C110_found",
    "MC.C110_coefficients",
    "MC.C110_throws",
    "MC.C110_finding_same_place"
   ],
   "note": "Finding: when two nodes are at the same place, or all on one line in dimension 2, the matrix has no inverse, there is a division by 0 and no exception. Roundings are not in the model."
  },
  {
   "property": "C111",
   "status": "proved",
   "theorems": [
    "MC.C111_plane",
    "MC.C111_coplanar",
    "MC.C111_found",
    "MC.C111_throws",
    "MC.C111_checked",
    "MC.C111_finding_normal_sum",
    "MC.C111_finding_diagonal",
    "MC.C111_finding_late_check"
   ],
   "note": "Findings: faces in planes such as x = y make a division by 0 instead of an exception; the coordinates of a node that does not exist are read before it is checked. One cell is modelled; the loop on cells and the check of the dimensions are not. Roundings are not in the model."
  }
 ]
}