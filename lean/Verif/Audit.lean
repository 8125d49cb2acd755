import Verif.Algo.PropsCellwise
import Verif.Algo.PropsInverse
import Verif.Algo.PropsReduce
import Verif.Algo.PropsUnseen
import Verif.Basics.Props
import Verif.Basics.PropsError
import Verif.Basics.PropsLimits
import Verif.Basics.PropsParams
import Verif.Basics.PropsProfile
import Verif.Boundary.Props
import Verif.Boundary.PropsAdvection
import Verif.Boundary.PropsExchange
import Verif.Boundary.PropsHits
import Verif.Boundary.PropsHitsCases
import Verif.Boundary.PropsSurface
import Verif.Boundary.PropsSurfaceCases
import Verif.Boundary.PropsSurfaceUnknown
import Verif.Boundary.PropsWall
import Verif.Boundary.PropsWallCases
import Verif.Boundary.PropsWallMissing
import Verif.Boundary.PropsWallPost
import Verif.Comm.PropsEdges
import Verif.Comm.PropsExchange
import Verif.Comm.PropsPair
import Verif.Comm.PropsSet
import Verif.Containers.Props
import Verif.Containers.PropsArray
import Verif.Containers.PropsArrayExamples
import Verif.Containers.PropsCas
import Verif.Containers.PropsCellReduce
import Verif.Containers.PropsLocalArray
import Verif.Containers.PropsMHC
import Verif.Containers.PropsND
import Verif.Containers.PropsResMap
import Verif.Containers.PropsRng
import Verif.Containers.PropsSerial
import Verif.Containers.PropsTree
import Verif.Containers.PropsTupleRng
import Verif.Dsmc.PropsAllToAll
import Verif.Dsmc.PropsNoRep
import Verif.Dsmc.PropsNtc
import Verif.Dsmc.PropsNtcCheck
import Verif.Dsmc.PropsPartition
import Verif.Group.Props
import Verif.Group.PropsCellDat
import Verif.Group.PropsGet
import Verif.Group.PropsHistory
import Verif.Group.PropsProduct
import Verif.Group.PropsProductAdd
import Verif.Group.PropsPtrMap
import Verif.Group.PropsSet
import Verif.Group.PropsTemp
import Verif.Hybrid.Props
import Verif.Hybrid.PropsCell
import Verif.Io.Props
import Verif.Io.PropsVtk
import Verif.Loop.Props
import Verif.Loop.PropsLocalMem
import Verif.Mesh.Props
import Verif.Mesh.PropsBox
import Verif.Mesh.PropsCart
import Verif.Mesh.PropsCoord
import Verif.Mesh.PropsFace
import Verif.Mesh.PropsGrid
import Verif.Mesh.PropsMap
import Verif.Mesh.PropsMapError
import Verif.Mesh.PropsMapper
import Verif.Mesh.PropsMeshVtk
import Verif.Mesh.PropsOverlay
import Verif.Mesh.PropsPlot
import Verif.Mesh.PropsStart
import Verif.Mesh.PropsUniform
import Verif.Move.PropsGlobal
import Verif.Move.PropsIdentify
import Verif.Move.PropsLocal
import Verif.Move.PropsPack
import Verif.Pair.PropsBlock
import Verif.Pair.PropsCheck
import Verif.Pair.PropsHost
import Verif.Pair.PropsLoop
import Verif.Pair.PropsSimple
import Verif.Petsc.PropsBary
import Verif.Petsc.PropsCells
import Verif.Petsc.PropsCoupler
import Verif.Petsc.PropsEdges
import Verif.Petsc.PropsHalo
import Verif.Petsc.PropsHost
import Verif.Petsc.PropsInterface
import Verif.Petsc.PropsLabel
import Verif.Petsc.PropsMapper
import Verif.Petsc.PropsProject
import Verif.Petsc.PropsSample
import Verif.Petsc.PropsValidate
import Verif.Points.Props
import Verif.Points.PropsDof
import Verif.Sub.Props
import Verif.Sub.PropsCache
import Verif.Sub.PropsCellInfo
import Verif.Sub.PropsVersion

/-!
# Axioms of the property theorems

Printed when this file is built.
-/

#print axioms NP.C01_decomp_balanced_partition
#print axioms NP.C01_zero_units
#print axioms NP.C02_inverse_finds_owner
#print axioms NP.C02_inverse_iff
#print axioms NP.C02_out_of_range_divides_by_zero
#print axioms NP.C03_exclusive_scan
#print axioms NP.C03_exclusive_scan_group
#print axioms NP.C03_exclusive_scan_blocking
#print axioms NP.C04_exclusive_scan_n
#print axioms NP.C04_exclusive_scan_nm
#print axioms NP.C04_inclusive_scan_n
#print axioms NP.C04_exclusive_scan_n_sum
#print axioms NP.C05_transpose_partial
#print axioms NP.C05_degenerate_not_transposed
#print axioms NP.C06_next_multiple
#print axioms NP.C06_div_round_up
#print axioms NP.C06_prev_power_of_two
#print axioms NP.C06_min_power_of_two
#print axioms NP.C06_is_power_of_two
#print axioms NP.C06_zero_undefined
#print axioms NP.C07_each_particle_once
#print axioms NP.C07_bad_cells_rejected
#print axioms NP.C07_iteration_set
#print axioms NP.C08_strided_each_particle_once
#print axioms NP.C08_strided_iteration_set
#print axioms NP.C09_local_linear_index
#print axioms NP.C09_loop_linear_index
#print axioms NP.C09_sub_linear_index
#print axioms NP.C10_protocol
#print axioms NP.C10_accepted_calls
#print axioms NP.C10_idle_after_wait
#print axioms NP.C11_remove_keeps_others
#print axioms NP.C11_remove_host
#print axioms NP.C11_remove_host_short
#print axioms NP.C11_negative_cell_id_also_removed
#print axioms NP.C12_sparse_keeps_others
#print axioms NP.C13_add_particle_set
#print axioms NP.C13_bad_cell_rejected
#print axioms NP.C13_no_cells_rejected
#print axioms NP.C14_add_group
#print axioms NP.C14_add_group_rejected
#print axioms NP.C14_add_sub_group
#print axioms NP.C14_add_own_sub_group
#print axioms NP.C15_cell_move
#print axioms NP.C15_bad_cell_rejected
#print axioms NP.C16_particle_remover
#print axioms NP.C17_history
#print axioms NP.C17_get_cell
#print axioms NP.C17_nrow_max
#print axioms NP.C17_nrow_min_partial
#print axioms NP.C17_fresh_nrow_min
#print axioms NP.C17_address_model
#print axioms NP.C17_fixed_host_device
#print axioms NP.C17_fixed_no_aliasing
#print axioms NP.C18_new_group
#print axioms NP.C18_counts_agree
#print axioms NP.C18_valid_call
#print axioms NP.C18_valid_history
#print axioms NP.C18_required_properties_stay
#print axioms NP.C18_add_property
#print axioms NP.C18_incompatible_property_rejected
#print axioms NP.C18_remove_property
#print axioms NP.C18_clear
#print axioms NP.C18_small_hint_too_few_rows
#print axioms NP.C18_small_hint_loses_values
#print axioms NP.C19_entries_independent
#print axioms NP.C19_default_value
#print axioms NP.C19_get
#print axioms NP.C19_set
#print axioms NP.C19_descendant_rows
#print axioms NP.C19_parents
#print axioms NP.C20_products_partial
#print axioms NP.C20_descendants
#print axioms NP.C20_rejects
#print axioms NP.C20_cell_from_wrong_column
#print axioms NP.C20_unset_parent_fails
#print axioms NP.C21_selected
#print axioms NP.C21_members
#print axioms NP.C21_nested
#print axioms NP.C21_cells_layers
#print axioms NP.C22_order_preserved
#print axioms NP.C22_increasing
#print axioms NP.C22_deterministic
#print axioms NP.C23_truncate
#print axioms NP.C23_discard
#print axioms NP.C23_truncate_discard
#print axioms NP.C23_cells
#print axioms NP.C23_copy
#print axioms NP.C23_union
#print axioms NP.C23_disjoint_union
#print axioms NP.C23_union_overlap
#print axioms NP.C23_no_cells
#print axioms NP.C24_current_partial
#print axioms NP.C24_use_succeeds
#print axioms NP.C24_select_partial
#print axioms NP.C24_static_kept
#print axioms NP.C24_static_invalid
#print axioms NP.C24_stale_set_value
#print axioms NP.C24_stale_pointer
#print axioms NP.C24_stale_added_again
#print axioms NP.C24_stale_static_parent
#print axioms NP.C25_partition
#print axioms NP.C25_members
#print axioms NP.C26_identify
#print axioms NP.C27_pack
#print axioms NP.C27_unpack
#print axioms NP.C27_round_trip
#print axioms NP.C28_global_move
#print axioms NP.C28_conserves
#print axioms NP.C29_remote_ranks
#print axioms NP.C29_each_once
#print axioms NP.C29_ordered
#print axioms NP.C29_data
#print axioms NP.C29_counts_then_data
#print axioms NP.C30_setup
#print axioms NP.C30_setup_rejects
#print axioms NP.C30_local_move
#print axioms NP.C30_conserves
#print axioms NP.C30_unreachable
#print axioms NP.C31_alltoallw
#print axioms NP.C31_alltoall
#print axioms NP.C32_reduce
#print axioms NP.C32_union_unique
#print axioms NP.C32_all_reduce
#print axioms NP.C33_coarse
#print axioms NP.C33_fine
#print axioms NP.C33_global
#print axioms NP.C33_constructor
#print axioms NP.C34_owner
#print axioms NP.C34_owner_unique
#print axioms NP.C34_independent
#print axioms NP.C34_bad_weight
#print axioms NP.C35_single_cell_partial
#print axioms NP.C35_coordinates
#print axioms NP.C35_neighbours_partial
#print axioms NP.C35_large_offset_fails
#print axioms NP.C35_large_offset_wrong_cell
#print axioms NP.C36_position_to_cell
#print axioms NP.C36_cell_unique
#print axioms NP.C36_execute
#print axioms NP.C36_reset
#print axioms NP.C36_beyond_detected
#print axioms NP.C36_below_origin_not_rejected
#print axioms NP.C36_execute_beyond
#print axioms NP.C37_cell
#print axioms NP.C37_in_range
#print axioms NP.C38_wrap
#print axioms NP.C38_wrap_masked
#print axioms NP.C39_partition
#print axioms NP.C39_local_index
#print axioms NP.C39_hierarchy_owner
#print axioms NP.C40_bijection
#print axioms NP.C40_owner
#print axioms NP.C40_owned
#print axioms NP.C41_local_mapper
#print axioms NP.C42_reordered
#print axioms NP.C42_reordered_optimal
#print axioms NP.C42_lower
#print axioms NP.C42_single
#print axioms NP.C42_accepted
#print axioms NP.C42_search_incomplete
#print axioms NP.C43_map
#print axioms NP.C43_claims
#print axioms NP.C44_index
#print axioms NP.C44_cell
#print axioms NP.C44_intersecting_partial
#print axioms NP.C44_three_dimensions_fail
#print axioms NP.C44_create
#print axioms NP.C45_round_trip
#print axioms NP.C45_cell_buffer
#print axioms NP.C45_nested
#print axioms NP.C46_get
#print axioms NP.C46_not_gathered
#print axioms NP.C46_large_cells_mixed
#print axioms NP.C47_map
#print axioms NP.C47_device_lookup
#print axioms NP.C48_lookup
#print axioms NP.C48_out_of_range_rejected
#print axioms NP.C49_range
#print axioms NP.C49_order
#print axioms NP.C49_last_fastest
#print axioms NP.C49_onto
#print axioms NP.C50_get
#print axioms NP.C50_free
#print axioms NP.C50_restore
#print axioms NP.C51_no_sample_twice
#print axioms NP.C51_invalid_iff_reported
#print axioms NP.C51_reads_past_the_samples
#print axioms NP.C51_enough_samples
#print axioms NP.C51_no_components
#print axioms NP.C51_no_components_spurious
#print axioms NP.C52_distinct_samples
#print axioms NP.C53_realloc_no_copy
#print axioms NP.C53_realloc_partial
#print axioms NP.C53_realloc_shrink_overflows
#print axioms NP.C53_empty_buffer_cannot_grow
#print axioms NP.C53_set_get
#print axioms NP.C54_waves
#print axioms NP.C54_clear
#print axioms NP.C54_conflict_free
#print axioms NP.C54_each_once
#print axioms NP.C54_rejects
#print axioms NP.C55_sample_partial
#print axioms NP.C55_rejects
#print axioms NP.C55_stale_list
#print axioms NP.C55_whole_group_fails
#print axioms NP.C55_overlapping_self_pair
#print axioms NP.C56_sample
#print axioms NP.C56_rejects
#print axioms NP.C56_requests_not_checked
#print axioms NP.C57_entries
#print axioms NP.C57_create
#print axioms NP.C57_max_occupancy
#print axioms NP.C57_max_num_pairs
#print axioms NP.C57_rejects
#print axioms NP.C57_labels_not_checked
#print axioms NP.C57_no_species_fails
#print axioms NP.C58_block_calls
#print axioms NP.C58_block_indices
#print axioms NP.C58_block_sizes_not_checked
#print axioms NP.C58_calls
#print axioms NP.C58_indices_partial
#print axioms NP.C58_list_set
#print axioms NP.C58_list_set_rejects
#print axioms NP.C58_list_clear
#print axioms NP.C58_list_push
#print axioms NP.C58_list_clear_push_partial
#print axioms NP.C58_list_push_rejects
#print axioms NP.C58_host_loop
#print axioms NP.C58_empty_list_shifts
#print axioms NP.C58_push_after_set_aborts
#print axioms NP.C58_push_after_set_loses
#print axioms NP.C59_each_value_once
#print axioms NP.C59_never_again
#print axioms NP.C60_component
#print axioms NP.C60_rejects
#print axioms NP.C60_components_partial
#print axioms NP.C60_surplus_components
#print axioms NP.C61_reflect
#print axioms NP.C61_unique
#print axioms NP.C61_sign
#print axioms NP.C61_involution
#print axioms NP.C61_rejects
#print axioms NP.C62_truncate_partial
#print axioms NP.C62_zero_reset_fails
#print axioms NP.C63_numbering
#print axioms NP.C63_extension
#print axioms NP.C63_rejects
#print axioms NP.C63_forward
#print axioms NP.C63_backward
#print axioms NP.C63_backward_host_memory
#print axioms NP.C64_on_the_way
#print axioms NP.C64_reaches
#print axioms NP.C64_start
#print axioms NP.C65_cart_tuples
#print axioms NP.C65_no_trunc_partial
#print axioms NP.C65_no_trunc_off_by_one
#print axioms NP.C66_neighbours
#print axioms NP.C67_reduction
#print axioms NP.C67_rejects
#print axioms NP.C68_departs
#print axioms NP.C68_exit
#print axioms NP.C68_point_unique
#print axioms NP.C68_start_on_wall
#print axioms NP.C68_along_wall
#print axioms NP.C69_shared_side
#print axioms NP.C69_missing
#print axioms NP.C69_groups
#print axioms NP.C69_once
#print axioms NP.C69_pre
#print axioms NP.C69_step
#print axioms NP.C69_rejects
#print axioms NP.C70_runs
#print axioms NP.C70_contributions
#print axioms NP.C70_project
#print axioms NP.C70_evaluate
#print axioms NP.C70_one_value
#print axioms NP.C70_conserved
#print axioms NP.C70_integral
#print axioms NP.C70_fill_one_rank
#print axioms NP.C70_stale
#print axioms NP.C70_final_short
#print axioms NP.C70_project_any
#print axioms NP.C70_evaluate_any
#print axioms NP.C70_unknown_rejected
#print axioms NP.C71_owned
#print axioms NP.C71_partition
#print axioms NP.C71_registered
#print axioms NP.C71_project
#print axioms NP.C71_repeated_side
#print axioms NP.C72_setup
#print axioms NP.C72_hybrid_move
#print axioms NP.C72_owner_map
#print axioms NP.C72_cell_move
#print axioms NP.C72_step
#print axioms NP.C73_execute
#print axioms NP.C73_history
#print axioms NP.C73_ranks_agree
#print axioms NP.C73_only_last_submission
#print axioms NP.C73_two_loops_in_flight
#print axioms NP.C73_contributions_lost
#print axioms NP.C73_local_history
#print axioms NP.C73_local_accepts
#print axioms NP.C73_local_new
#print axioms NP.C73_fetch_add
#print axioms NP.C73_unique_indices
#print axioms NP.C74_get_particles
#print axioms NP.C74_get_particles_rejects
#print axioms NP.C74_spec_current
#print axioms NP.C74_sub_group
#print axioms NP.C74_sub_group_rejects
#print axioms NP.C74_new_set
#print axioms NP.C74_set_component
#print axioms NP.C74_set_element
#print axioms NP.C74_at_unchecked
#print axioms NP.C74_set_from
#print axioms NP.C74_round_trip
#print axioms NP.C74_remove_sub_group
#print axioms NP.C75_write
#print axioms NP.C75_names_distinct
#print axioms NP.C75_same_name_rejected
#print axioms NP.C75_missing_property_rejected
#print axioms NP.C75_read
#print axioms NP.C75_round_trip
#print axioms NP.C75_earlier_steps_kept
#print axioms NP.C75_history
#print axioms NP.C75_step_numbers
#print axioms NP.C75_empty_step_unreadable
#print axioms NP.C76_group_partial
#print axioms NP.C76_sub_partial
#print axioms NP.C76_one_name
#print axioms NP.C76_one_name_sub
#print axioms NP.C76_same_as_one_by_one_partial
#print axioms NP.C76_group_runs
#print axioms NP.C76_sub_runs
#print axioms NP.C76_stale_added_again
#print axioms NP.C76_stale_added_again_sub
#print axioms NP.C76_stale_ephemeral
#print axioms NP.C76_stale_shadowed
#print axioms NP.C77_rows_partial
#print axioms NP.C77_rows_vector_partial
#print axioms NP.C77_add
#print axioms NP.C77_add_rejected
#print axioms NP.C77_gone_after_change_partial
#print axioms NP.C77_gone_after_write
#print axioms NP.C77_remove
#print axioms NP.C77_kept
#print axioms NP.C77_whole_group_stale
#print axioms NP.C78_each_pair_once
#print axioms NP.C78_phases
#print axioms NP.C78_size_three
#print axioms NP.C79_ntc_validates
#print axioms NP.C79_validate
#print axioms NP.C79_validated
#print axioms NP.C79_host_list
#print axioms NP.C79_occupancy
#print axioms NP.C79_mean
#print axioms NP.C79_pairs_in_waves
#print axioms NP.C79_global
#print axioms NP.C79_global_sizes
#print axioms NP.C80_get
#print axioms NP.C80_restore
#print axioms NP.C80_second_positions
#print axioms NP.C81_get_partial
#print axioms NP.C81_get_fails
#print axioms NP.C81_interpolate_partial
#print axioms NP.C81_set
#print axioms NP.C81_set_get_partial
#print axioms NP.C81_order
#print axioms NP.C82_get
#print axioms NP.C82_copy_to_partial
#print axioms NP.C82_unset_fails
#print axioms NP.C82_copy_from_ignores
#print axioms NP.C82_copy_from_wrong
#print axioms NP.C83_npart_cell
#print axioms NP.C83_npart_rejects
#print axioms NP.C83_negative_row
#print axioms NP.C83_element_wise
#print axioms NP.C83_element_wise_rejects
#print axioms NP.C83_copies
#print axioms NP.C83_copies_reject
#print axioms NP.C83_broadcast
#print axioms NP.C83_broadcast_rejects
#print axioms NP.C84_round_trip
#print axioms NP.C84_used_object
#print axioms NP.C84_container
#print axioms NP.C84_pack
#print axioms NP.C84_cells
#print axioms NP.C84_halo
#print axioms NP.C84_halo_empty
#print axioms NP.C84_collect
#print axioms NP.C84_point_lookup
#print axioms NP.C84_point_lookup_signed
#print axioms NP.C85_orientation
#print axioms NP.C85_contains
#print axioms NP.C85_top_missed
#print axioms NP.C85_map
#print axioms NP.C85_check
#print axioms NP.C85_box
#print axioms NP.C85_top_edge_lost
#print axioms NP.C85_box_changed
#print axioms NP.C86_triangle
#print axioms NP.C86_triangle_flat
#print axioms NP.C86_bilinear
#print axioms NP.C86_quad_partial
#print axioms NP.C86_parallelogram
#print axioms NP.C86_upright
#print axioms NP.C86_quad_sound
#print axioms NP.C86_weights
#print axioms NP.C86_quad_weights_partial
#print axioms NP.C86_quad_lost
#print axioms NP.C86_outside_accepted
#print axioms NP.C86_torus
#print axioms NP.C86_torus_inverse
#print axioms NP.C86_torus_axis
#print axioms NP.C87_runs
#print axioms NP.C87_forward
#print axioms NP.C87_backward
#print axioms NP.C87_conserved
#print axioms NP.C87_transpose
#print axioms NP.C87_bad_cell
#print axioms NP.C87_rejected
#print axioms NP.C87_point_index
#print axioms NP.C88_intersect
#print axioms NP.C88_normal
#print axioms NP.C88_reported
#print axioms NP.C88_found_partial
#print axioms NP.C88_first_crossing_partial
#print axioms NP.C88_normal_get
#print axioms NP.C88_normal_get_null
#print axioms NP.C88_three_components
#print axioms NP.C88_pre
#print axioms NP.C88_rejected
#print axioms NP.C88_top_missed
#print axioms NP.C89_project
#print axioms NP.C89_conserved
#print axioms NP.C89_get
#print axioms NP.C89_set
#print axioms NP.C89_evaluate
#print axioms NP.C89_evaluate_points
#print axioms NP.C89_round_trip
#print axioms NP.C89_output
#print axioms NP.C89_new
#print axioms NP.C89_lost
#print axioms NP.C90_project
#print axioms NP.C90_conserved
#print axioms NP.C90_evaluate
#print axioms NP.C90_affine
#print axioms NP.C90_round_trip
#print axioms NP.C90_output
#print axioms NP.C90_output_evaluate
#print axioms NP.C90_new
#print axioms NP.C91_setup
#print axioms NP.C91_owner
#print axioms NP.C91_touching
#print axioms NP.C91_cover
#print axioms NP.C91_hierarchy
#print axioms NP.C91_box_inside
#print axioms NP.C91_flat
#print axioms NP.C91_neighbours
#print axioms NP.C91_unowned
#print axioms NP.C92_labels
#print axioms NP.C92_missing
#print axioms NP.C92_sizes
#print axioms NP.C92_wide
#print axioms NP.C92_order_needed
#print axioms NP.C93_map
#print axioms NP.C93_contains
#print axioms NP.C93_bad_cell
#print axioms NP.C93_overlap
#print axioms NP.C94_cell
#print axioms NP.C94_completes
#print axioms NP.C94_too_small
#print axioms NP.C94_last_attempt
#print axioms NP.C94_cells
#print axioms NP.C94_density
#print axioms NP.C94_contained
#print axioms NP.C94_fresh
#print axioms NP.C94_inside
#print axioms NP.C95_linear
#print axioms NP.C95_returns
#print axioms NP.C95_max
#print axioms NP.C95_min
#print axioms NP.C95_alone
#print axioms NP.C96_inverse3
#print axioms NP.C96_inverse4
#print axioms NP.C96_singular
#print axioms NP.C96_solve
#print axioms NP.C96_cross
#print axioms NP.C97_read
#print axioms NP.C97_write
#print axioms NP.C97_counts
#print axioms NP.C97_memory
#print axioms NP.C97_reals
#print axioms NP.C97_ints
#print axioms NP.C98_read
#print axioms NP.C98_sizes
#print axioms NP.C98_once
#print axioms NP.C98_missing_quantity
#print axioms NP.C99_cells
#print axioms NP.C99_face
#print axioms NP.C99_faces
#print axioms NP.C99_function
#print axioms NP.C99_one_dimension
#print axioms NP.C100_write
#print axioms NP.C100_fine
#print axioms NP.C100_coarse
#print axioms NP.C101_fits
#print axioms NP.C101_refused
#print axioms NP.C101_each_particle_once
#print axioms NP.C101_private
#print axioms NP.C102_truth
#print axioms NP.C102_fatal
#print axioms NP.C102_rank_local
#print axioms NP.C103_history
#print axioms NP.C103_refused
#print axioms NP.C103_fetched
#print axioms NP.C103_any_order
#print axioms NP.C103_unchecked_arguments
#print axioms NP.C104_vertices
#print axioms NP.C104_average
#print axioms NP.C104_table
#print axioms NP.C104_face_sets
#print axioms NP.C104_volume
#print axioms NP.C104_vtk_cells
#print axioms NP.C104_vtk_file
#print axioms NP.C104_mapper_vertex
#print axioms NP.C104_mapper_average
#print axioms NP.C104_mapper_concave
#print axioms NP.C105_nd_range
#print axioms NP.C105_group_wraps
#print axioms NP.C105_zero_local
#print axioms NP.C105_limits
#print axioms NP.C105_local_memory_wraps
#print axioms NP.C105_env
#print axioms NP.C105_working_device
#print axioms NP.C105_accepted
#print axioms NP.C105_integer_sums_blind
#print axioms NP.C106_get
#print axioms NP.C106_get_fails
#print axioms NP.C106_reuse
#print axioms NP.C106_restore
#print axioms NP.C106_free
#print axioms NP.C106_wrong_key
#print axioms NP.C107_reported
#print axioms NP.C107_below
#print axioms NP.C107_flag
#print axioms NP.C107_order
#print axioms NP.C107_wraps
#print axioms NP.C108_submit
#print axioms NP.C108_components
#print axioms NP.C108_draws
#print axioms NP.C108_again
#print axioms NP.C109_entries
#print axioms NP.C109_events
#print axioms NP.C109_regions
#print axioms NP.C109_region_times
#print axioms NP.C109_fails
#print axioms NP.C109_enable_inside
#print axioms NP.C109_reset_keeps_events
#print axioms NP.C109_json_lines
#print axioms NP.C109_json_keys
#print axioms NP.C109_json_quotes
#print axioms NP.C110_positions
#print axioms NP.C110_samples
#print axioms NP.C111_get
#print axioms NP.C111_set
#print axioms NP.C111_target
#print axioms NP.C111_store
#print axioms NP.C111_negative
#print axioms NP.C111_hint
#print axioms NP.C111_hint_set
#print axioms NP.C112_intra
#print axioms NP.C112_inter
#print axioms NP.C112_devices
#print axioms NP.C112_local_rank
#print axioms NP.C112_negative
#print axioms NP.C113_count
#print axioms NP.C113_positive
