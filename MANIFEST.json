{
 "claims": [
  {
   "property": "C01",
   "status": "proved",
   "theorems": [
    "NP.C01_decomp_balanced_partition",
    "NP.C01_zero_units"
   ],
   "note": ""
  },
  {
   "property": "C02",
   "status": "proved",
   "theorems": [
    "NP.C02_inverse_finds_owner",
    "NP.C02_inverse_iff",
    "NP.C02_out_of_range_divides_by_zero"
   ],
   "note": ""
  },
  {
   "property": "C03",
   "status": "proved",
   "theorems": [
    "NP.C03_exclusive_scan",
    "NP.C03_exclusive_scan_group",
    "NP.C03_exclusive_scan_blocking"
   ],
   "note": ""
  },
  {
   "property": "C04",
   "status": "proved",
   "theorems": [
    "NP.C04_exclusive_scan_n",
    "NP.C04_exclusive_scan_nm",
    "NP.C04_inclusive_scan_n",
    "NP.C04_exclusive_scan_n_sum"
   ],
   "note": ""
  },
  {
   "property": "C05",
   "status": "partial",
   "theorems": [
    "NP.C05_transpose_partial",
    "NP.C05_degenerate_not_transposed"
   ],
   "note": "Proved for matrices with at least two rows and columns. For a single row or column the code launches nothing; the violation is C05_degenerate_not_transposed."
  },
  {
   "property": "C06",
   "status": "proved",
   "theorems": [
    "NP.C06_next_multiple",
    "NP.C06_div_round_up",
    "NP.C06_prev_power_of_two",
    "NP.C06_min_power_of_two",
    "NP.C06_is_power_of_two",
    "NP.C06_zero_undefined"
   ],
   "note": ""
  },
  {
   "property": "C07",
   "status": "proved",
   "theorems": [
    "NP.C07_each_particle_once",
    "NP.C07_bad_cells_rejected",
    "NP.C07_iteration_set"
   ],
   "note": ""
  },
  {
   "property": "C08",
   "status": "proved",
   "theorems": [
    "NP.C08_strided_each_particle_once",
    "NP.C08_strided_iteration_set"
   ],
   "note": ""
  },
  {
   "property": "C09",
   "status": "proved",
   "theorems": [
    "NP.C09_local_linear_index",
    "NP.C09_loop_linear_index",
    "NP.C09_sub_linear_index"
   ],
   "note": ""
  },
  {
   "property": "C10",
   "status": "proved",
   "theorems": [
    "NP.C10_protocol",
    "NP.C10_accepted_calls",
    "NP.C10_idle_after_wait"
   ],
   "note": ""
  },
  {
   "property": "C11",
   "status": "proved",
   "theorems": [
    "NP.C11_remove_keeps_others",
    "NP.C11_remove_host",
    "NP.C11_remove_host_short",
    "NP.C11_negative_cell_id_also_removed"
   ],
   "note": ""
  },
  {
   "property": "C12",
   "status": "proved",
   "theorems": [
    "NP.C12_sparse_keeps_others"
   ],
   "note": ""
  },
  {
   "property": "C13",
   "status": "proved",
   "theorems": [
    "NP.C13_add_particle_set",
    "NP.C13_bad_cell_rejected",
    "NP.C13_no_cells_rejected"
   ],
   "note": ""
  },
  {
   "property": "C14",
   "status": "proved",
   "theorems": [
    "NP.C14_add_group",
    "NP.C14_add_group_rejected",
    "NP.C14_add_sub_group",
    "NP.C14_add_own_sub_group"
   ],
   "note": ""
  },
  {
   "property": "C15",
   "status": "proved",
   "theorems": [
    "NP.C15_cell_move",
    "NP.C15_bad_cell_rejected"
   ],
   "note": ""
  },
  {
   "property": "C16",
   "status": "proved",
   "theorems": [
    "NP.C16_particle_remover"
   ],
   "note": ""
  },
  {
   "property": "C17",
   "status": "partial",
   "theorems": [
    "NP.C17_history",
    "NP.C17_get_cell",
    "NP.C17_nrow_max",
    "NP.C17_nrow_min_partial",
    "NP.C17_fresh_nrow_min",
    "NP.C17_address_model",
    "NP.C17_fixed_host_device",
    "NP.C17_fixed_no_aliasing"
   ],
   "note": "get_nrow_min is proved for stores on which set_nrow has been called since creation; a fresh store reports -1 instead of the minimum (C17_fresh_nrow_min)."
  },
  {
   "property": "C18",
   "status": "proved",
   "theorems": [
    "NP.C18_new_group",
    "NP.C18_counts_agree",
    "NP.C18_valid_call",
    "NP.C18_valid_history",
    "NP.C18_required_properties_stay",
    "NP.C18_add_property",
    "NP.C18_incompatible_property_rejected",
    "NP.C18_remove_property",
    "NP.C18_clear",
    "NP.C18_small_hint_too_few_rows",
    "NP.C18_small_hint_loses_values"
   ],
   "note": "Counts agree after every history of calls that return. The stronger consistency (a row for each particle) is proved for valid calls, where a property is not added with an occupancy hint below a cell count; C18_small_hint_loses_values shows that this exclusion is needed."
  },
  {
   "property": "C19",
   "status": "proved",
   "theorems": [
    "NP.C19_entries_independent",
    "NP.C19_default_value",
    "NP.C19_get",
    "NP.C19_set",
    "NP.C19_descendant_rows",
    "NP.C19_parents"
   ],
   "note": "Any specification, any earlier history of resets, accesses, defaults and set; get and set in ParticleSet layout; rows and parents of descendant products."
  },
  {
   "property": "C20",
   "status": "partial",
   "theorems": [
    "NP.C20_products_partial",
    "NP.C20_descendants",
    "NP.C20_rejects",
    "NP.C20_cell_from_wrong_column",
    "NP.C20_unset_parent_fails"
   ],
   "note": "C20_descendants is the full claim for descendant products without cell ids in the matrix; C20_products_partial covers all matrices in which the INT properties before the cell ids have one component. Outside of that the code does something else: C20_cell_from_wrong_column, C20_unset_parent_fails."
  },
  {
   "property": "C21",
   "status": "proved",
   "theorems": [
    "NP.C21_selected",
    "NP.C21_members",
    "NP.C21_nested",
    "NP.C21_cells_layers"
   ],
   "note": "For every parent the API can build, every schedule and memory content."
  },
  {
   "property": "C22",
   "status": "proved",
   "theorems": [
    "NP.C22_order_preserved",
    "NP.C22_increasing",
    "NP.C22_deterministic"
   ],
   "note": ""
  },
  {
   "property": "C23",
   "status": "proved",
   "theorems": [
    "NP.C23_truncate",
    "NP.C23_discard",
    "NP.C23_truncate_discard",
    "NP.C23_cells",
    "NP.C23_copy",
    "NP.C23_union",
    "NP.C23_disjoint_union",
    "NP.C23_union_overlap",
    "NP.C23_no_cells"
   ],
   "note": "Findings: overlapping unions list particles twice (C23_union_overlap), and ranks without cells read index -1 (C23_no_cells)."
  },
  {
   "property": "C24",
   "status": "partial",
   "theorems": [
    "NP.C24_current_partial",
    "NP.C24_use_succeeds",
    "NP.C24_select_partial",
    "NP.C24_static_kept",
    "NP.C24_static_invalid",
    "NP.C24_stale_set_value",
    "NP.C24_stale_pointer",
    "NP.C24_stale_added_again",
    "NP.C24_stale_static_parent"
   ],
   "note": "After any history of writes through the API, group changes, uses and static marks, using a sub group gives a selection recomputed from present data (also instantiated with the real selector); static sub groups keep their selection and fail after a group change. Missing: writes that bypass the write callback (set_value, a pointer kept after a later API write), removing and adding again a property on which a sub group depends, and ending the static status of a sub group with children, for which C24_stale_set_value, C24_stale_pointer, C24_stale_added_again and C24_stale_static_parent prove that the code returns stale sub groups."
  },
  {
   "property": "C25",
   "status": "proved",
   "theorems": [
    "NP.C25_partition",
    "NP.C25_members"
   ],
   "note": ""
  },
  {
   "property": "C26",
   "status": "proved",
   "theorems": [
    "NP.C26_identify"
   ],
   "note": ""
  },
  {
   "property": "C27",
   "status": "proved",
   "theorems": [
    "NP.C27_pack",
    "NP.C27_unpack",
    "NP.C27_round_trip"
   ],
   "note": "Packing and unpacking proved for any number of particles, properties and components, any work item order, both device aware and host staged paths."
  },
  {
   "property": "C28",
   "status": "proved",
   "theorems": [
    "NP.C28_global_move",
    "NP.C28_conserves"
   ],
   "note": "global_move over any number of ranks, any arrival and increment order; delivery and conservation."
  },
  {
   "property": "C29",
   "status": "proved",
   "theorems": [
    "NP.C29_remote_ranks",
    "NP.C29_each_once",
    "NP.C29_ordered",
    "NP.C29_data",
    "NP.C29_counts_then_data"
   ],
   "note": ""
  },
  {
   "property": "C30",
   "status": "proved",
   "theorems": [
    "NP.C30_setup",
    "NP.C30_setup_rejects",
    "NP.C30_local_move",
    "NP.C30_conserves",
    "NP.C30_unreachable"
   ],
   "note": "Construction of the pattern, delivery, conservation, and abort for unnamed ranks, for any number of ranks and any arrival order."
  },
  {
   "property": "C31",
   "status": "proved",
   "theorems": [
    "NP.C31_alltoallw",
    "NP.C31_alltoall"
   ],
   "note": ""
  },
  {
   "property": "C32",
   "status": "proved",
   "theorems": [
    "NP.C32_reduce",
    "NP.C32_union_unique",
    "NP.C32_all_reduce"
   ],
   "note": ""
  },
  {
   "property": "C33",
   "status": "proved",
   "theorems": [
    "NP.C33_coarse",
    "NP.C33_fine",
    "NP.C33_global",
    "NP.C33_constructor"
   ],
   "note": ""
  },
  {
   "property": "C34",
   "status": "proved",
   "theorems": [
    "NP.C34_owner",
    "NP.C34_owner_unique",
    "NP.C34_independent",
    "NP.C34_bad_weight"
   ],
   "note": ""
  },
  {
   "property": "C35",
   "status": "partial",
   "theorems": [
    "NP.C35_single_cell_partial",
    "NP.C35_coordinates",
    "NP.C35_neighbours_partial",
    "NP.C35_large_offset_fails",
    "NP.C35_large_offset_wrong_cell"
   ],
   "note": "Proved for offsets whose width is below the number of cells in each periodic dimension; C35_large_offset_fails and C35_large_offset_wrong_cell show the negative remainder violation for larger offsets."
  },
  {
   "property": "C36",
   "status": "proved",
   "theorems": [
    "NP.C36_position_to_cell",
    "NP.C36_cell_unique",
    "NP.C36_execute",
    "NP.C36_reset",
    "NP.C36_beyond_detected",
    "NP.C36_below_origin_not_rejected",
    "NP.C36_execute_beyond"
   ],
   "note": "Exact arithmetic, positions between the lower and upper end of the domain. C36_below_origin_not_rejected: positions below the origin are not detected."
  },
  {
   "property": "C37",
   "status": "proved",
   "theorems": [
    "NP.C37_cell",
    "NP.C37_in_range"
   ],
   "note": "Exact arithmetic; origin zero as in the kernel."
  },
  {
   "property": "C38",
   "status": "proved",
   "theorems": [
    "NP.C38_wrap",
    "NP.C38_wrap_masked"
   ],
   "note": "Exact arithmetic."
  },
  {
   "property": "C39",
   "status": "proved",
   "theorems": [
    "NP.C39_partition",
    "NP.C39_local_index",
    "NP.C39_hierarchy_owner"
   ],
   "note": "For every accepted rank grid and any numbering of the ranks by the Cartesian communicator; the hierarchy part uses the claim protocol of C34."
  },
  {
   "property": "C40",
   "status": "proved",
   "theorems": [
    "NP.C40_bijection",
    "NP.C40_owner",
    "NP.C40_owned"
   ],
   "note": "two and three dimensions; the constructor rejects one dimension"
  },
  {
   "property": "C41",
   "status": "proved",
   "theorems": [
    "NP.C41_local_mapper"
   ],
   "note": "Includes that the self test of the constructor passes; the owner function is the one proved in C39_hierarchy_owner. Exact arithmetic."
  },
  {
   "property": "C42",
   "status": "proved",
   "theorems": [
    "NP.C42_reordered",
    "NP.C42_reordered_optimal",
    "NP.C42_lower",
    "NP.C42_single",
    "NP.C42_accepted",
    "NP.C42_search_incomplete"
   ],
   "note": "MPI_Dims_create and ties of std::sort arbitrary; the lower dimension generator keeps the product except when all cell counts divide the size with a factor left over; C42_search_incomplete: a valid grid can be missed"
  },
  {
   "property": "C43",
   "status": "proved",
   "theorems": [
    "NP.C43_map",
    "NP.C43_claims"
   ],
   "note": "exact arithmetic; also the claims collected over a sequence of elements"
  },
  {
   "property": "C44",
   "status": "partial",
   "theorems": [
    "NP.C44_index",
    "NP.C44_cell",
    "NP.C44_intersecting_partial",
    "NP.C44_three_dimensions_fail",
    "NP.C44_create"
   ],
   "note": "get_intersecting_cells fails in three dimensions (C44_three_dimensions_fail), proved for one and two"
  },
  {
   "property": "C45",
   "status": "proved",
   "theorems": [
    "NP.C45_round_trip",
    "NP.C45_cell_buffer",
    "NP.C45_nested"
   ],
   "note": ""
  },
  {
   "property": "C46",
   "status": "proved",
   "theorems": [
    "NP.C46_get",
    "NP.C46_not_gathered",
    "NP.C46_large_cells_mixed"
   ],
   "note": "For cell indices that fit into an int; C46_large_cells_mixed shows what happens otherwise. The message exchange is modelled by its result."
  },
  {
   "property": "C47",
   "status": "proved",
   "theorems": [
    "NP.C47_map",
    "NP.C47_device_lookup"
   ],
   "note": ""
  },
  {
   "property": "C48",
   "status": "proved",
   "theorems": [
    "NP.C48_lookup",
    "NP.C48_out_of_range_rejected"
   ],
   "note": ""
  },
  {
   "property": "C49",
   "status": "proved",
   "theorems": [
    "NP.C49_range",
    "NP.C49_order",
    "NP.C49_last_fastest",
    "NP.C49_onto"
   ],
   "note": ""
  },
  {
   "property": "C50",
   "status": "proved",
   "theorems": [
    "NP.C50_get",
    "NP.C50_free",
    "NP.C50_restore"
   ],
   "note": ""
  },
  {
   "property": "C51",
   "status": "proved",
   "theorems": [
    "NP.C51_no_sample_twice",
    "NP.C51_invalid_iff_reported",
    "NP.C51_reads_past_the_samples",
    "NP.C51_enough_samples",
    "NP.C51_no_components",
    "NP.C51_no_components_spurious"
   ],
   "note": ""
  },
  {
   "property": "C52",
   "status": "proved",
   "theorems": [
    "NP.C52_distinct_samples"
   ],
   "note": ""
  },
  {
   "property": "C53",
   "status": "partial",
   "theorems": [
    "NP.C53_realloc_no_copy",
    "NP.C53_realloc_partial",
    "NP.C53_realloc_shrink_overflows",
    "NP.C53_empty_buffer_cannot_grow",
    "NP.C53_set_get"
   ],
   "note": "realloc with a size factor that makes it shrink the buffer copies the old size into the smaller allocation: C53_realloc_shrink_overflows proves that every such call is out of bounds, so contents are proved kept only for calls that do not shrink (C53_realloc_partial). Capacity is proved for all calls of realloc_no_copy."
  },
  {
   "property": "C54",
   "status": "proved",
   "theorems": [
    "NP.C54_waves",
    "NP.C54_clear",
    "NP.C54_conflict_free",
    "NP.C54_each_once",
    "NP.C54_rejects"
   ],
   "note": "The model of CellwisePairListHost: waves of pushed pairs, for every sequence of push_back and clear; the waves are conflict free, contiguous, and hold every pair once."
  },
  {
   "property": "C55",
   "status": "partial",
   "theorems": [
    "NP.C55_sample_partial",
    "NP.C55_rejects",
    "NP.C55_stale_list",
    "NP.C55_whole_group_fails",
    "NP.C55_overlapping_self_pair"
   ],
   "note": "Proved for sub groups with a map of layers, for the CPU and the GPU algorithm and all orders of the work items: numbers of pairs, membership, different particles, conflict-free waves within a block, waves only where needed, wave counts, rejection of bad requests, stale lists. Missing: sub groups that are the whole group, for which the code reads through a null pointer (C55_whole_group_fails); overlapping different sub groups can give self pairs (C55_overlapping_self_pair)."
  },
  {
   "property": "C56",
   "status": "proved",
   "theorems": [
    "NP.C56_sample",
    "NP.C56_rejects",
    "NP.C56_requests_not_checked"
   ],
   "note": "sample of PairSamplerNoReplacement after any earlier uses: device and host pair lists hold exactly the requested number of pairs per collision cell, right species and collision cell, no particle twice, for all random numbers, conversions and schedules. Requests above the maximum are not checked by the code (C56_requests_not_checked)."
  },
  {
   "property": "C57",
   "status": "proved",
   "theorems": [
    "NP.C57_entries",
    "NP.C57_create",
    "NP.C57_max_occupancy",
    "NP.C57_max_num_pairs",
    "NP.C57_rejects",
    "NP.C57_labels_not_checked",
    "NP.C57_no_species_fails"
   ],
   "note": "Any partition object, however often constructed; any sub group that selectors can make (Built); any visiting order; any buffer contents. Labels of registered species must be collision cells of their mesh cell (not checked by the code: C57_labels_not_checked)."
  },
  {
   "property": "C58",
   "status": "partial",
   "theorems": [
    "NP.C58_block_calls",
    "NP.C58_block_indices",
    "NP.C58_block_sizes_not_checked",
    "NP.C58_calls",
    "NP.C58_indices_partial",
    "NP.C58_list_set",
    "NP.C58_list_set_rejects",
    "NP.C58_list_clear",
    "NP.C58_list_push",
    "NP.C58_list_clear_push_partial",
    "NP.C58_list_push_rejects",
    "NP.C58_host_loop",
    "NP.C58_empty_list_shifts",
    "NP.C58_push_after_set_aborts",
    "NP.C58_push_after_set_loses"
   ],
   "note": "Calls, order of the waves and pair indices of both pair loops for every list that satisfies the specification of the device structure; the device list made with set or push_back satisfies it (C58_list_*), and C58_host_loop goes from pushed pairs to kernel calls. Partial: pair indices need lists that report their number of pairs, which an empty list does not (C58_empty_list_shifts); push_back after set can assert or lose waves (C58_push_after_set_*); lists of different block size are not rejected (C58_block_sizes_not_checked)."
  },
  {
   "property": "C59",
   "status": "proved",
   "theorems": [
    "NP.C59_each_value_once",
    "NP.C59_never_again"
   ],
   "note": "Every history of extract calls on one extractor, each on its own group or sub group, property values, kernel order and memory contents: a call returns exactly the values of its particles that no earlier call saw, each once. Exact counters; the tree is the model of C47."
  },
  {
   "property": "C60",
   "status": "partial",
   "theorems": [
    "NP.C60_component",
    "NP.C60_rejects",
    "NP.C60_components_partial",
    "NP.C60_surplus_components"
   ],
   "note": "Partial: properties with as many components as the matrix has entries (C60_components_partial) and any single component (C60_component); C60_surplus_components shows that the code accepts properties with more components than entries and combines the surplus into the first entry. reduce_over_group is trusted to combine the values of the work items once each, in any order. Exact arithmetic; the identity of min and max over floating point numbers is the largest finite number, so infinities are outside the laws."
  },
  {
   "property": "C61",
   "status": "proved",
   "theorems": [
    "NP.C61_reflect",
    "NP.C61_unique",
    "NP.C61_sign",
    "NP.C61_involution",
    "NP.C61_rejects"
   ],
   "note": "BoundaryReflection::execute over any sub group, order of kernel calls, 1-3 dimensions and unit normals, exact reals: speed kept, normal component negated, tangential components kept; these conditions determine the velocity; sign of the normal irrelevant; involution; particles outside the sub group unchanged; missing data rejected."
  },
  {
   "property": "C62",
   "status": "partial",
   "theorems": [
    "NP.C62_truncate_partial",
    "NP.C62_zero_reset_fails"
   ],
   "note": "BoundaryTruncation::execute over any sub group and order, exact reals: position on the segment at distance min(reset, |previous - intersection|) from the wall, factor in [0,1] equal to the part of the step before the wall, consistent times. Missing: reset distance 0 for a particle already at its intersection point, where the code divides 0 by 0 (proved: C62_zero_reset_fails)."
  },
  {
   "property": "C63",
   "status": "proved",
   "theorems": [
    "NP.C63_numbering",
    "NP.C63_extension",
    "NP.C63_rejects",
    "NP.C63_forward",
    "NP.C63_backward",
    "NP.C63_backward_host_memory"
   ],
   "note": "All ranks are modelled together, every function of extend_exchange_pattern, exchange_from_device and reverse_exchange_from_device in turn. For every history of extensions whose pairs name the owner of the face: the extension succeeds, faces and indices are numbered one to one and numbers never change, a pair naming a rank that does not own the face aborts, the owner's entry becomes its old value plus the value of every rank that announced the face once each, and the reverse exchange gives every announcing rank the owner's value. Orders in which MPI lists neighbours, memory contents and order of work items are arbitrary. MPI_Neighbor_alltoallw semantics are trusted, addition is exact and commutative. C63_backward needs kernels to be able to read the buffer passed: when MPI is not device aware the library passes a host pointer and C63_backward_host_memory proves the failure otherwise."
  },
  {
   "property": "C64",
   "status": "proved",
   "theorems": [
    "NP.C64_on_the_way",
    "NP.C64_reaches",
    "NP.C64_start"
   ],
   "note": "Any number of ranks, particles, steps >= 1 and kernel orders, exact rationals; hybrid_move is any rearrangement of the particles that keeps their properties (C26-C30). After k of n steps every particle is at k/n of its way; at the end all have their requested positions and the check passes."
  },
  {
   "property": "C65",
   "status": "partial",
   "theorems": [
    "NP.C65_cart_tuples",
    "NP.C65_no_trunc_partial",
    "NP.C65_no_trunc_off_by_one"
   ],
   "note": "The index without truncation is proved except for positions below the origin exactly on a cell boundary, where it is one too small (C65_no_trunc_off_by_one)."
  },
  {
   "property": "C66",
   "status": "proved",
   "theorems": [
    "NP.C66_neighbours"
   ],
   "note": "The owner function is the one proved in C39_hierarchy_owner."
  },
  {
   "property": "C67",
   "status": "proved",
   "theorems": [
    "NP.C67_reduction",
    "NP.C67_rejects"
   ],
   "note": "Includes the choice of blocks and work group sizes. Exact arithmetic. Work groups do not read the CellDatConst, their atomic updates arrive in any order. Other arguments of the loop and the self test of pre_loop are not modelled."
  },
  {
   "property": "C68",
   "status": "proved",
   "theorems": [
    "NP.C68_departs",
    "NP.C68_exit",
    "NP.C68_point_unique",
    "NP.C68_start_on_wall",
    "NP.C68_along_wall"
   ],
   "note": "C68_departs, C68_exit: the selected particles and the reported point and side; C68_point_unique: the specification determines the point for tolerance zero. C68_start_on_wall and C68_along_wall are proved violations when the start is not strictly inside, which the property excludes."
  },
  {
   "property": "C69",
   "status": "proved",
   "theorems": [
    "NP.C69_shared_side",
    "NP.C69_missing",
    "NP.C69_groups",
    "NP.C69_once",
    "NP.C69_pre",
    "NP.C69_step",
    "NP.C69_rejects"
   ],
   "note": "The result of each group, each particle once, pre_integration, a full time step and the rejection of unknown sides are proved. C69_shared_side records that a side in two groups goes to the later one only; the quantifier of the property excludes it."
  },
  {
   "property": "C70",
   "status": "proved",
   "theorems": [
    "NP.C70_runs",
    "NP.C70_contributions",
    "NP.C70_project",
    "NP.C70_evaluate",
    "NP.C70_one_value",
    "NP.C70_conserved",
    "NP.C70_integral",
    "NP.C70_fill_one_rank",
    "NP.C70_stale",
    "NP.C70_final_short",
    "NP.C70_project_any",
    "NP.C70_evaluate_any",
    "NP.C70_unknown_rejected"
   ],
   "note": "All five theorems cover every history of collective calls; contributions with calls of post_integration between them carry the hypothesis that the staging buffer holds no stale entries, needed because of C70_stale. Values are exact rationals."
  },
  {
   "property": "C71",
   "status": "proved",
   "theorems": [
    "NP.C71_owned",
    "NP.C71_partition",
    "NP.C71_registered",
    "NP.C71_project",
    "NP.C71_repeated_side"
   ],
   "note": "The constructor and post_integration on all ranks are composed from the models of C44, C60, C63, C69 and C70. C71_repeated_side: if a side is given twice in a group, a face has two values and one of them stays zero."
  },
  {
   "property": "C72",
   "status": "proved",
   "theorems": [
    "NP.C72_setup",
    "NP.C72_hybrid_move",
    "NP.C72_owner_map",
    "NP.C72_cell_move",
    "NP.C72_step"
   ],
   "note": "hybrid_move and cell_move on all ranks of a Cartesian mesh, from the map of owners made by the constructor to the rows of the cells; positions in the closed domain, reals exact."
  },
  {
   "property": "C73",
   "status": "proved",
   "theorems": [
    "NP.C73_execute",
    "NP.C73_history",
    "NP.C73_ranks_agree",
    "NP.C73_only_last_submission",
    "NP.C73_two_loops_in_flight",
    "NP.C73_contributions_lost",
    "NP.C73_local_history",
    "NP.C73_local_accepts",
    "NP.C73_local_new",
    "NP.C73_fetch_add",
    "NP.C73_unique_indices"
   ],
   "note": "GlobalArray for every history of executions and fills on any number of ranks; LocalArray for every accepted history of calls; what the code does with several submissions before a wait, which loses contributions, is proved as well (C73_only_last_submission, C73_two_loops_in_flight)."
  },
  {
   "property": "C74",
   "status": "proved",
   "theorems": [
    "NP.C74_get_particles",
    "NP.C74_get_particles_rejects",
    "NP.C74_spec_current",
    "NP.C74_sub_group",
    "NP.C74_sub_group_rejects",
    "NP.C74_new_set",
    "NP.C74_set_component",
    "NP.C74_set_element",
    "NP.C74_at_unchecked",
    "NP.C74_set_from",
    "NP.C74_round_trip",
    "NP.C74_remove_sub_group"
   ],
   "note": "get_particles of groups and sub groups, the specification kept by the group, particle sets, the round trip through add_particles_local and the removal of sub groups. ParticleSet::operator[], which makes an empty column for a property the set does not contain, is not modelled."
  },
  {
   "property": "C75",
   "status": "proved",
   "theorems": [
    "NP.C75_write",
    "NP.C75_names_distinct",
    "NP.C75_same_name_rejected",
    "NP.C75_missing_property_rejected",
    "NP.C75_read",
    "NP.C75_round_trip",
    "NP.C75_earlier_steps_kept",
    "NP.C75_history",
    "NP.C75_step_numbers",
    "NP.C75_empty_step_unreadable"
   ],
   "note": "Steps, datasets and reads exactly, for any numbers of writers and readers; the HDF5 library is modelled by its documented effect. The multi dimensional mode (private, never enabled) is not modelled."
  },
  {
   "property": "C76",
   "status": "partial",
   "theorems": [
    "NP.C76_group_partial",
    "NP.C76_sub_partial",
    "NP.C76_one_name",
    "NP.C76_one_name_sub",
    "NP.C76_same_as_one_by_one_partial",
    "NP.C76_group_runs",
    "NP.C76_sub_runs",
    "NP.C76_stale_added_again",
    "NP.C76_stale_added_again_sub",
    "NP.C76_stale_ephemeral",
    "NP.C76_stale_shadowed"
   ],
   "note": "In histories in which each name is used for one particle dat, a loop given a list of names accesses exactly the dats that the names mean, over groups and sub groups; loops given single names do so in all histories, and a loop runs exactly if the names are known. Missing: names used for a second dat, for which C76_stale_added_again, C76_stale_added_again_sub, C76_stale_ephemeral and C76_stale_shadowed prove that the code accesses the wrong dat."
  },
  {
   "property": "C77",
   "status": "partial",
   "theorems": [
    "NP.C77_rows_partial",
    "NP.C77_rows_vector_partial",
    "NP.C77_add",
    "NP.C77_add_rejected",
    "NP.C77_gone_after_change_partial",
    "NP.C77_gone_after_write",
    "NP.C77_remove",
    "NP.C77_kept",
    "NP.C77_whole_group_stale"
   ],
   "note": "In all histories ephemeral dats of a sub group have one row per particle when a loop over it runs, are dropped by changes of particles and by writes, and are kept otherwise. Missing: sub groups of the whole particle group, for which C77_whole_group_stale proves that a loop accesses an ephemeral dat with rows for the old particles."
  },
  {
   "property": "C78",
   "status": "proved",
   "theorems": [
    "NP.C78_each_pair_once",
    "NP.C78_phases",
    "NP.C78_size_three"
   ],
   "note": "Proved for all work group sizes that are powers of two; C78_size_three shows that the code needs this. Rows are shared by work items in a phase, so only the column item may be written."
  },
  {
   "property": "C79",
   "status": "proved",
   "theorems": [
    "NP.C79_ntc_validates",
    "NP.C79_validate",
    "NP.C79_validated",
    "NP.C79_host_list",
    "NP.C79_occupancy",
    "NP.C79_mean",
    "NP.C79_pairs_in_waves",
    "NP.C79_global",
    "NP.C79_global_sizes"
   ],
   "note": "Acceptance is equivalent to an independent definition of a race free list with exact wave counts; malformed structures may read outside of arrays (none), accepted ones never do. Lists of the NTC sampler are accepted if the sub groups are equal or disjoint. Floating point mean is exact rational arithmetic; global reduction is a sum over ranks."
  },
  {
   "property": "C80",
   "status": "proved",
   "theorems": [
    "NP.C80_get",
    "NP.C80_restore",
    "NP.C80_second_positions"
   ],
   "note": "All histories of adding and removing properties by name and number of components, of particles, of get, restore and of pointer copies. C80_second_positions shows what happens if the position property of the source is replaced, which is outside the quantifier."
  },
  {
   "property": "C81",
   "status": "partial",
   "theorems": [
    "NP.C81_get_partial",
    "NP.C81_get_fails",
    "NP.C81_interpolate_partial",
    "NP.C81_set",
    "NP.C81_set_get_partial",
    "NP.C81_order"
   ],
   "note": "Partial because the code does not meet the property: get of two or more components fails if a rank holds a point of another rank (C81_get_fails), and set does not reach such points (C81_set_get_partial says what get then returns). Everything else is proved for all ranks, points, moves, schedules and message orders."
  },
  {
   "property": "C82",
   "status": "partial",
   "theorems": [
    "NP.C82_get",
    "NP.C82_copy_to_partial",
    "NP.C82_unset_fails",
    "NP.C82_copy_from_ignores",
    "NP.C82_copy_from_wrong"
   ],
   "note": "get and copy_to_external are proved for all histories. copy_from_external is wrong in the code: it never reads the external buffer (C82_copy_from_ignores, C82_copy_from_wrong)."
  },
  {
   "property": "C83",
   "status": "proved",
   "theorems": [
    "NP.C83_npart_cell",
    "NP.C83_npart_rejects",
    "NP.C83_negative_row",
    "NP.C83_element_wise",
    "NP.C83_element_wise_rejects",
    "NP.C83_copies",
    "NP.C83_copies_reject",
    "NP.C83_broadcast",
    "NP.C83_broadcast_rejects"
   ],
   "note": "Proved for all selections, shapes, kernels, aliasing and orders. A negative row is accepted by the code and overwrites another entry (C83_negative_row)."
  },
  {
   "property": "C84",
   "status": "proved",
   "theorems": [
    "NP.C84_round_trip",
    "NP.C84_used_object",
    "NP.C84_container",
    "NP.C84_pack",
    "NP.C84_cells",
    "NP.C84_halo",
    "NP.C84_halo_empty",
    "NP.C84_collect",
    "NP.C84_point_lookup",
    "NP.C84_point_lookup_signed"
   ],
   "note": "Bytes, closure of a cell, numbering and construction of the halo mesh for all meshes, orders and repetitions. PETSc itself is a table of points; DMPlexSymmetrize, DMPlexStratify and the coordinate section are not modelled."
  },
  {
   "property": "C85",
   "status": "proved",
   "theorems": [
    "NP.C85_orientation",
    "NP.C85_contains",
    "NP.C85_top_missed",
    "NP.C85_map",
    "NP.C85_check",
    "NP.C85_box",
    "NP.C85_top_edge_lost",
    "NP.C85_box_changed"
   ],
   "note": "Exact arithmetic for the shape of cells; C85_orientation for every arithmetic. C85_top_missed, C85_top_edge_lost and C85_box_changed state what goes wrong (findings 58 and 59)."
  },
  {
   "property": "C86",
   "status": "partial",
   "theorems": [
    "NP.C86_triangle",
    "NP.C86_triangle_flat",
    "NP.C86_bilinear",
    "NP.C86_quad_partial",
    "NP.C86_parallelogram",
    "NP.C86_upright",
    "NP.C86_quad_sound",
    "NP.C86_weights",
    "NP.C86_quad_weights_partial",
    "NP.C86_quad_lost",
    "NP.C86_outside_accepted",
    "NP.C86_torus",
    "NP.C86_torus_inverse",
    "NP.C86_torus_axis"
   ],
   "note": "Partial because the code violates the claim for quadrilaterals: C86_quad_lost and C86_outside_accepted (findings 60 and 61). C86_quad_partial has the condition that the component used as divisor is not zero; C86_parallelogram and C86_upright are shapes of cells for which it always holds."
  },
  {
   "property": "C87",
   "status": "proved",
   "theorems": [
    "NP.C87_runs",
    "NP.C87_forward",
    "NP.C87_backward",
    "NP.C87_conserved",
    "NP.C87_transpose",
    "NP.C87_bad_cell",
    "NP.C87_rejected",
    "NP.C87_point_index"
   ],
   "note": "For partitions whose owned cells are the first points of each rank, as the code assumes without a check; otherwise see C87_point_index. Exact arithmetic in a commutative semiring."
  },
  {
   "property": "C88",
   "status": "partial",
   "theorems": [
    "NP.C88_intersect",
    "NP.C88_normal",
    "NP.C88_reported",
    "NP.C88_found_partial",
    "NP.C88_first_crossing_partial",
    "NP.C88_normal_get",
    "NP.C88_normal_get_null",
    "NP.C88_three_components",
    "NP.C88_pre",
    "NP.C88_rejected",
    "NP.C88_top_missed"
   ],
   "note": "Partial because the code misses some crossings: steps on or beyond the upper end of the grid's domain (C88_top_missed), and every step if positions have three components (C88_three_components). C88_found_partial and C88_first_crossing_partial hold for steps below the upper ends. The rest (what is reported is a crossing, normals, mapper, pre_integration, rejected input) is proved in full."
  },
  {
   "property": "C89",
   "status": "proved",
   "theorems": [
    "NP.C89_project",
    "NP.C89_conserved",
    "NP.C89_get",
    "NP.C89_set",
    "NP.C89_evaluate",
    "NP.C89_evaluate_points",
    "NP.C89_round_trip",
    "NP.C89_output",
    "NP.C89_new",
    "NP.C89_lost"
   ],
   "note": "For objects after any calls, on one rank, over any field. Evaluation is proved for components the function has; C89_lost proves that evaluating more replaces the function by zero."
  },
  {
   "property": "C90",
   "status": "proved",
   "theorems": [
    "NP.C90_project",
    "NP.C90_conserved",
    "NP.C90_evaluate",
    "NP.C90_affine",
    "NP.C90_round_trip",
    "NP.C90_output",
    "NP.C90_output_evaluate",
    "NP.C90_new"
   ],
   "note": "Any mesh of triangles and quadrilaterals, any history of calls. The LU solver is a parameter with stated assumptions; real numbers are exact; weights in general quadrilaterals under the condition of C86."
  },
  {
   "property": "C91",
   "status": "proved",
   "theorems": [
    "NP.C91_setup",
    "NP.C91_owner",
    "NP.C91_touching",
    "NP.C91_cover",
    "NP.C91_hierarchy",
    "NP.C91_box_inside",
    "NP.C91_flat",
    "NP.C91_neighbours",
    "NP.C91_unowned"
   ],
   "note": "C91_setup owners and halos of all ranks, C91_owner, C91_touching, C91_cover positions, C91_hierarchy, C91_box_inside, C91_flat, C91_neighbours, C91_unowned (witness)"
  },
  {
   "property": "C92",
   "status": "proved",
   "theorems": [
    "NP.C92_labels",
    "NP.C92_missing",
    "NP.C92_sizes",
    "NP.C92_wide",
    "NP.C92_order_needed"
   ],
   "note": "For parts of meshes with distinct vertex numbers and ascending supports and 32-bit PetscInts: the labels on every rank are exactly the former ones and those of the requested edges; unmet requests and unequal sizes are reported. With 64-bit PetscInts every call with a request is undefined (C92_wide); ascending supports are needed (C92_order_needed)."
  },
  {
   "property": "C93",
   "status": "proved",
   "theorems": [
    "NP.C93_map",
    "NP.C93_contains",
    "NP.C93_bad_cell",
    "NP.C93_overlap"
   ],
   "note": "All particles or those of one cell, any order of kernel items and contents of fresh memory, point location as a parameter; that the cell contains the particle for meshes without overlap (C93_contains). With an overlap the numbers are wrong (C93_overlap)."
  },
  {
   "property": "C94",
   "status": "proved",
   "theorems": [
    "NP.C94_cell",
    "NP.C94_completes",
    "NP.C94_too_small",
    "NP.C94_last_attempt",
    "NP.C94_cells",
    "NP.C94_density",
    "NP.C94_contained",
    "NP.C94_fresh",
    "NP.C94_inside"
   ],
   "note": "All sequences of random numbers (as a sequence of draws), bounding boxes, volumes and cell_contains_point as parameters; for two dimensional cells combined with C85 (C94_inside). The last attempt is of no use (C94_last_attempt)."
  },
  {
   "property": "C95",
   "status": "proved",
   "theorems": [
    "NP.C95_linear",
    "NP.C95_returns",
    "NP.C95_max",
    "NP.C95_min",
    "NP.C95_alone"
   ],
   "note": "Interleavings at the granularity of the exchanges; values from any linear order (no NaN, one zero)."
  },
  {
   "property": "C96",
   "status": "proved",
   "theorems": [
    "NP.C96_inverse3",
    "NP.C96_inverse4",
    "NP.C96_singular",
    "NP.C96_solve",
    "NP.C96_cross"
   ],
   "note": "Exact arithmetic over any field; division by zero is none."
  },
  {
   "property": "C97",
   "status": "proved",
   "theorems": [
    "NP.C97_read",
    "NP.C97_write",
    "NP.C97_counts",
    "NP.C97_memory",
    "NP.C97_reals",
    "NP.C97_ints"
   ],
   "note": "All histories of additions, removals, requests and settings of counts; the only owner of a property is the group."
  },
  {
   "property": "C98",
   "status": "proved",
   "theorems": [
    "NP.C98_read",
    "NP.C98_sizes",
    "NP.C98_once",
    "NP.C98_missing_quantity"
   ],
   "note": "Cells with different quantities are excluded, as the documentation says all data must have the same keys; C98_missing_quantity shows what happens otherwise."
  },
  {
   "property": "C99",
   "status": "proved",
   "theorems": [
    "NP.C99_cells",
    "NP.C99_face",
    "NP.C99_faces",
    "NP.C99_function",
    "NP.C99_one_dimension"
   ],
   "note": "Quantified over two and three dimensional meshes. In one dimension the code announces eight points for two (C99_one_dimension)."
  },
  {
   "property": "C100",
   "status": "proved",
   "theorems": [
    "NP.C100_write",
    "NP.C100_fine",
    "NP.C100_coarse"
   ],
   "note": "Full claim over exact arithmetic; the text form of the numbers in the file is not modelled."
  },
  {
   "property": "C101",
   "status": "proved",
   "theorems": [
    "NP.C101_fits",
    "NP.C101_refused",
    "NP.C101_each_particle_once",
    "NP.C101_private"
   ],
   "note": "Full claim for loops without reduction arguments; log2 and pow of get_num_local_work_items are exact in the model."
  },
  {
   "property": "C102",
   "status": "proved",
   "theorems": [
    "NP.C102_truth",
    "NP.C102_fatal",
    "NP.C102_rank_local"
   ],
   "note": "Truth on all ranks as an equivalence, for well-formed distributed 2D meshes and any halo; fatal never returns false; the value of one rank is not a verdict on all (witness)."
  },
  {
   "property": "C103",
   "status": "proved",
   "theorems": [
    "NP.C103_history",
    "NP.C103_refused",
    "NP.C103_fetched",
    "NP.C103_any_order",
    "NP.C103_unchecked_arguments"
   ],
   "note": "Full refinement to functions of index tuples over all histories; refused uses, returned values, independence of the order, and unchecked argument packs."
  },
  {
   "property": "C104",
   "status": "proved",
   "theorems": [
    "NP.C104_vertices",
    "NP.C104_average",
    "NP.C104_table",
    "NP.C104_face_sets",
    "NP.C104_volume",
    "NP.C104_vtk_cells",
    "NP.C104_vtk_file",
    "NP.C104_mapper_vertex",
    "NP.C104_mapper_average",
    "NP.C104_mapper_concave"
   ],
   "note": "What PETSc returns for cells, faces and volumes is given; the move of points to their cells is any placement; meshes whose vertex means are outside of their cells are excluded for the points at vertices (C104_mapper_concave shows why)."
  },
  {
   "property": "C105",
   "status": "proved",
   "theorems": [
    "NP.C105_nd_range",
    "NP.C105_group_wraps",
    "NP.C105_zero_local",
    "NP.C105_limits",
    "NP.C105_local_memory_wraps",
    "NP.C105_env",
    "NP.C105_working_device",
    "NP.C105_accepted",
    "NP.C105_integer_sums_blind"
   ],
   "note": "Acceptance as equivalences, with 64 bit wraparound modelled; the devices and sizes for which the intended check is not sound are excluded and shown by witnesses. REAL is exact."
  },
  {
   "property": "C106",
   "status": "proved",
   "theorems": [
    "NP.C106_get",
    "NP.C106_get_fails",
    "NP.C106_reuse",
    "NP.C106_restore",
    "NP.C106_free",
    "NP.C106_wrong_key"
   ],
   "note": "Proved for all histories in which resources are restored with their own key; C106_wrong_key shows that the restriction is needed (finding 81)."
  },
  {
   "property": "C107",
   "status": "proved",
   "theorems": [
    "NP.C107_reported",
    "NP.C107_below",
    "NP.C107_flag",
    "NP.C107_order",
    "NP.C107_wraps"
   ],
   "note": "Proved for all histories; C107_wraps shows that the bound on the number of failures is needed (finding 82)."
  },
  {
   "property": "C108",
   "status": "proved",
   "theorems": [
    "NP.C108_submit",
    "NP.C108_components",
    "NP.C108_draws",
    "NP.C108_again"
   ],
   "note": "Proved for all nestings of tuples and all histories of overlapping loops. How samples are drawn is C51 and C52."
  },
  {
   "property": "C109",
   "status": "proved",
   "theorems": [
    "NP.C109_entries",
    "NP.C109_events",
    "NP.C109_regions",
    "NP.C109_region_times",
    "NP.C109_fails",
    "NP.C109_enable_inside",
    "NP.C109_reset_keeps_events",
    "NP.C109_json_lines",
    "NP.C109_json_keys",
    "NP.C109_json_quotes"
   ],
   "note": "Proved for all histories; C109_enable_inside, C109_reset_keeps_events and C109_json_quotes show what the code gets wrong (findings 83 to 85)."
  },
  {
   "property": "C110",
   "status": "proved",
   "theorems": [
    "NP.C110_positions",
    "NP.C110_samples"
   ],
   "note": "Samples are exact rationals in [0, 1), so rounding at the upper side of a cell is not modelled. The generator is a sequence of samples."
  },
  {
   "property": "C111",
   "status": "proved",
   "theorems": [
    "NP.C111_get",
    "NP.C111_set",
    "NP.C111_target",
    "NP.C111_store",
    "NP.C111_negative",
    "NP.C111_hint",
    "NP.C111_hint_set"
   ],
   "note": "For targets made with gpu_device == 0; C111_store records that other targets have no store. Objects are not freed in the model. C111_negative records that negative numbers are accepted."
  },
  {
   "property": "C112",
   "status": "proved",
   "theorems": [
    "NP.C112_intra",
    "NP.C112_inter",
    "NP.C112_devices",
    "NP.C112_local_rank",
    "NP.C112_negative"
   ],
   "note": "MPI_Comm_split with equal keys is modelled by its standard semantics. C112_negative records that negative local ranks are not rejected."
  },
  {
   "property": "C113",
   "status": "proved",
   "theorems": [
    "NP.C113_count",
    "NP.C113_positive"
   ],
   "note": "For all sub groups that can be made in the model (Built). Counts on the host and on the device agree (C18)."
  }
 ]
}