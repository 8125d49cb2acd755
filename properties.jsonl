{"id": "C01", "title": "1D work decomposition is a balanced partition", "statement": "For N work items over n > 0 units, the half open ranges returned by get_decomp_1d for units 0..n-1 are consecutive (each range starts where the previous one ends, the first starts at 0, the last ends at N), so every item is in exactly one range, and the range sizes differ by at most one.", "quantifier": "all numbers of items N >= 0, all numbers of units n >= 1 and every unit", "why_tests_cant": "the claim is over every pair (N, n); a test tries a few pairs and the boundary cases N < n, n | N and N = 0 each take different branches", "anchors": ["include/neso_particles/typedefs.hpp: get_decomp_1d"]}
{"id": "C02", "title": "Inverse 1D decomposition finds the owning unit", "statement": "get_decomp_1d_inverse(n, N, w) returns the one unit whose get_decomp_1d range contains w, for every w in [0, N), and never divides by zero for such w.", "quantifier": "all n >= 1, N >= 0 and all w < N", "why_tests_cant": "must hold for every item of every decomposition, including N < n where the quotient is zero", "anchors": ["include/neso_particles/typedefs.hpp: get_decomp_1d_inverse, get_decomp_1d"]}
{"id": "C03", "title": "Blocked exclusive scan computes prefix sums", "statement": "joint_exclusive_scan(N, src, dst), in both the single work group and the multi block implementation, writes dst[i] = src[0] + ... + src[i-1] for every i < N, whatever the number of blocks, the local size and the order in which blocks run, and writes nothing else.", "quantifier": "all N, all source arrays, all local sizes and compute unit counts, all orders of block execution", "why_tests_cant": "the number of blocks and their boundaries depend on the device; tests run one device and a few lengths", "anchors": ["src/algorithms/common.cpp: joint_exclusive_scan", "include/neso_particles/algorithms/common.hpp: Private::joint_exclusive_scan"]}
{"id": "C04", "title": "Segmented scans compute per segment prefix sums and totals", "statement": "joint_exclusive_scan_n, joint_exclusive_scan_n_sum and joint_inclusive_scan_n compute, for each of the n segments, the exclusive/inclusive prefix sums of that segment only; the sum variant also returns each segment total (0 for an empty segment).", "quantifier": "all segment counts, sizes and offsets (non overlapping segments), all contents", "why_tests_cant": "all segment shapes including empty segments must be right; each test fixes one shape", "anchors": ["include/neso_particles/algorithms/common.hpp: joint_exclusive_scan_n, joint_exclusive_scan_n_sum, joint_inclusive_scan_n"]}
{"id": "C05", "title": "Tiled matrix transpose is the transpose", "statement": "matrix_transpose(rows, cols, src, dst) leaves dst[c][r] = src[r][c] for every entry, for every tile size.", "quantifier": "all row and column counts, all tile (local) sizes, all matrices", "why_tests_cant": "off by one errors at partial tiles depend on (rows, cols, tile) residues; a test covers a handful", "anchors": ["include/neso_particles/algorithms/common.hpp: matrix_transpose"]}
{"id": "C06", "title": "Integer rounding helpers meet their contracts", "statement": "get_next_multiple(L, m) is the least multiple of m that is >= L; div_round_up(a, b) is the least k with k*b >= a; get_prev_power_of_two(N) is the largest power of two <= N; get_min_power_of_two(N, max) is the least power of two that is > N and >= 4, capped at max; is_power_of_two agrees with the definition. For N = 0 the power of two helpers have undefined behaviour.", "quantifier": "all non negative inputs with positive divisors; all positive N below 2^30 for the power of two helpers (int)", "why_tests_cant": "arithmetic laws over all integers", "anchors": ["include/neso_particles/typedefs.hpp: get_next_multiple, div_round_up, get_prev_power_of_two, get_min_power_of_two, is_power_of_two"]}
{"id": "C07", "title": "A particle loop visits every particle exactly once", "statement": "For a loop over all cells, a cell range or a single cell, the work items launched by the block iteration set, after the device side bounds check, visit each (cell, layer) with layer < npart(cell) in the requested cells exactly once and visit nothing else. In the launches without bounds check every work item is a valid particle.", "quantifier": "all occupancy vectors, cell ranges, local sizes, bin counts and per item local memory requirements", "why_tests_cant": "coverage depends on min/max occupancy, bin boundaries, rounding to powers of two and work group multiples: the product of cases is unbounded", "anchors": ["src/loop/particle_loop_iteration_set.cpp: ParticleLoopBlockIterationSet::get_generic", "include/neso_particles/loop/particle_loop_iteration_set.hpp: ParticleLoopBlockHost, get_cell_layer, work_item_required", "include/neso_particles/loop/particle_loop.hpp: submit"]}
{"id": "C08", "title": "A strided (reduction) particle loop visits every particle exactly once", "statement": "With a stride s > 1 the interlaced layers visited by all work items and all stride indices, after the bounds check, are each particle of the requested cells exactly once.", "quantifier": "all occupancy vectors, strides, local sizes, bins", "why_tests_cant": "as for the plain loop with an extra dimension; the peel of the unchecked block must be a multiple of local size times stride", "anchors": ["src/loop/particle_loop_iteration_set.cpp: get_generic", "include/neso_particles/loop/particle_loop_iteration_set.hpp: get_interlaced_cell_layer, stride_work_item_required, stride_local_index_bound", "include/neso_particles/loop/particle_loop_reduction.hpp"]}
{"id": "C09", "title": "Loop indices number particles densely and uniquely", "statement": "ParticleLoopIndex::get_local_linear_index numbers the particles of a group 0..npart_local-1 without gaps or repeats in (cell, layer) order; get_loop_linear_index numbers the particles visited by a loop (whole group, cell range or sub group) 0..size-1 without gaps or repeats.", "quantifier": "all groups, selections and cell ranges", "why_tests_cant": "users index per particle buffers (RNG, products) with these; uniqueness must hold for every occupancy", "anchors": ["include/neso_particles/loop/particle_loop_index.hpp: get_local_linear_index, get_loop_linear_index, get_sub_linear_index", "src/loop/particle_loop_utility.cpp: get_loop_npart, get_loop_iteration_set_size"]}
{"id": "C10", "title": "Loop submit/wait protocol", "statement": "Along every history of submit/wait/execute calls on a loop: a whole-loop submit of a running loop and a wait on a loop that is not running are rejected; every accepted submit runs the pre loop hooks exactly once before its kernels; a wait returns only after all kernels launched since the previous wait are complete and then runs the post loop hooks exactly once; after execute or wait the loop is not running. If every submit is for the whole loop then pre and post loop hooks strictly alternate (submits for given cells may be repeated before one wait).", "quantifier": "all finite histories of calls on one loop", "why_tests_cant": "a state machine property over unbounded histories", "anchors": ["include/neso_particles/loop/particle_loop.hpp: submit, wait, execute, prepare_submit"]}
{"id": "C11", "title": "Removing particles keeps exactly the other particles", "statement": "After ParticleGroup::remove_particles of a list of distinct particles, each cell holds exactly the particles that were not listed (each with all of its property values, none duplicated or lost), stored in layers 0..npart-1 of every property, and all properties agree about the count.", "quantifier": "all groups whose unlisted particles have non negative cell ids, all cells, and all lists of (cell, layer) pairs in any order", "why_tests_cant": "removal moves survivors into holes; correctness depends on the pattern of holes in the tail of every cell", "anchors": ["include/neso_particles/cell_dat_compression.hpp: LayerCompressor::compute_remove_compress_indicies_dense, remove_particles_inner", "include/neso_particles/particle_dat.hpp: copy_particle_data", "src/particle_group.cpp: remove_particles"]}
{"id": "C12", "title": "Removal is correct for every schedule of the atomics (sparse compressor)", "statement": "The atomics based compressor produces, for every interleaving of its device threads, a hole filling map that leaves each cell with exactly the unlisted particles in dense layers.", "quantifier": "all groups whose unlisted particles have non negative cell ids, all removal lists of distinct particles and all orders of the work items of the kernels", "why_tests_cant": "a test observes one interleaving", "anchors": ["include/neso_particles/cell_dat_compression.hpp: compute_remove_compress_indicies_sparse"]}
{"id": "C13", "title": "Adding a ParticleSet appends exactly the new particles", "statement": "add_particles_local(ParticleSet) leaves existing particles and their layers unchanged, and appends each new particle once to the cell it names, with the values given for every property in the set and zeros for the properties that are missing; counts of all properties agree.", "quantifier": "all groups, particle sets with valid cells, all orders of particles in the set", "why_tests_cant": "all sizes and cell patterns", "anchors": ["src/particle_group.cpp: ParticleGroup::add_particles_local(ParticleSet)", "include/neso_particles/particle_dat.hpp: append_particle_data", "src/particle_set.cpp"]}
{"id": "C14", "title": "Adding from another group or sub group copies the right values", "statement": "add_particles_local(ParticleGroup or ParticleSubGroup) appends a copy of every source particle to the same cell: properties common to both groups are copied, properties only in the destination are zero, the source group is unchanged, and existing particles are unchanged.", "quantifier": "all pairs of groups with equal cell counts and all selections", "why_tests_cant": "unbounded sizes and property sets", "anchors": ["src/particle_group.cpp: add_particles_local(ParticleGroupSharedPtr), add_particles_local(ParticleSubGroupSharedPtr)"]}
{"id": "C15", "title": "Cell move conserves particles and puts them in the named cell", "statement": "After cell_move, for every schedule of the atomic layer allocation, each cell holds exactly the particles whose cell id property named it, no particle is lost, duplicated or changed, and layers are dense.", "quantifier": "all groups with valid cell ids and all interleavings", "why_tests_cant": "layer assignment is by atomic increments, so only one interleaving is seen per run", "anchors": ["src/cell_dat_move.cpp: CellMove::move", "include/neso_particles/cell_dat_compression.hpp: remove_particles"]}
{"id": "C16", "title": "ParticleRemover removes exactly the matching particles", "statement": "ParticleRemover::remove(group, dat, key) removes exactly the particles whose first component equals the key, for every schedule of the collecting kernel.", "quantifier": "all groups, keys and interleavings", "why_tests_cant": "the collection order is schedule dependent", "anchors": ["include/neso_particles/particle_remover.hpp: ParticleRemover::remove"]}
{"id": "C17", "title": "Resizing a CellDat preserves existing rows", "statement": "After any sequence of set_nrow/reduce_nrow/set_value/set_cell calls a CellDat reports the requested row counts, never has fewer allocated rows than reported rows, and every value whose row was kept by all the resizes still has the last value written to it.", "quantifier": "all finite histories of resizes and writes", "why_tests_cant": "growth, shrink and reallocation interact over histories", "anchors": ["include/neso_particles/containers/cell_dat.hpp: set_nrow, reduce_nrow, wait_set_nrow, get_value, set_value, get_cell, set_cell, get_nrow_max"]}
{"id": "C18", "title": "Particle group bookkeeping invariant over all histories", "statement": "Along every history of adds, removals, cell moves, property additions and removals, every property of a group reports the same number of particles in every cell, the group total equals the sum, the cached exclusive sum is the prefix sum of the counts, and position, cell id and rank properties cannot be removed.", "quantifier": "all finite histories of API calls", "why_tests_cant": "histories are unbounded", "anchors": ["src/particle_group.cpp: add_particles_local, remove_particles, clear, add_particle_dat, remove_particle_dat", "include/neso_particles/particle_group.hpp: check_dats_and_group_agree, recompute_npart_cell_es, set_npart_cell_from_dat"]}
{"id": "C19", "title": "Product matrix entries do not alias", "statement": "In a ProductMatrix distinct (product, property, component) triples name distinct storage, all inside the allocation, so a value written by one product is read back unchanged after any other writes.", "quantifier": "all specifications, numbers of products and write sequences", "why_tests_cant": "index arithmetic over all specifications", "anchors": ["include/neso_particles/containers/product_matrix.hpp", "src/containers/particle_set_device.cpp", "include/neso_particles/containers/particle_set_device.hpp"]}
{"id": "C20", "title": "Products are added as described", "statement": "add_particles_local(product matrix) adds one particle per product in the cell it names (or the cell of its parent for DescendantProducts), with the product's values for the properties in the matrix, and, for descendant products, the parent's values for the other properties; products whose parent was not set are not added.", "quantifier": "all product matrices and parent assignments", "why_tests_cant": "all layouts of properties, all subsets of created products", "anchors": ["src/particle_group.cpp: add_particles_local(ProductMatrix/DescendantProducts)", "include/neso_particles/containers/descendant_products.hpp", "src/containers/descendant_products.cpp"]}
{"id": "C21", "title": "A sub group contains exactly the particles that satisfy its condition", "statement": "For every schedule of the selecting kernels, the map of a ParticleSubGroup lists, for each cell, each layer whose particle satisfies the condition exactly once and nothing else, and its counts and total are the numbers of such particles.", "quantifier": "all groups, conditions and interleavings of the atomic increments", "why_tests_cant": "schedule dependent", "anchors": ["include/neso_particles/particle_sub_group/sub_group_selector.hpp", "src/particle_sub_group/sub_group_selector.cpp: create"]}
{"id": "C22", "title": "Scan based selection is deterministic and order preserving", "statement": "The exclusive scan selector lists the selected layers of each cell in increasing order, so its result depends only on the data.", "quantifier": "all groups and conditions", "why_tests_cant": "all masks", "anchors": ["include/neso_particles/particle_sub_group/sub_group_selector_exclusive_scan.hpp"]}
{"id": "C23", "title": "Derived selections: truncate, discard, union, cell restriction, copy", "statement": "particle_sub_group_truncate keeps min(n, count) particles per cell of its parent and discard drops exactly those, so truncate and discard of the same n partition the parent; a disjoint union contains exactly the particles of its parents; a cell range sub group contains exactly the parent's particles in the range; a copy equals its parent.", "quantifier": "all parents, n >= 0, cell ranges and families of disjoint parents", "why_tests_cant": "all occupancy patterns", "anchors": ["src/particle_sub_group/particle_sub_group_truncate.cpp", "src/particle_sub_group/particle_sub_group_discard.cpp", "src/particle_sub_group/disjoint_union_selector.cpp", "src/particle_sub_group/cell_sub_group_selector.cpp", "src/particle_sub_group/copy_selector.cpp"]}
{"id": "C24", "title": "Sub groups are refreshed after every change", "statement": "After any history of particle property writes through the API and of group modifications, using a non static ParticleSubGroup sees the selection recomputed from the current data; a static one becomes invalid rather than stale when particles were moved.", "quantifier": "all finite histories of writes, group changes and uses", "why_tests_cant": "cache invalidation over unbounded histories", "anchors": ["src/particle_sub_group/sub_group_selector_base.cpp: get, update_required", "src/particle_sub_group/particle_sub_group_base.cpp: create_if_required, is_valid", "include/neso_particles/particle_group.hpp: invalidate_callback_inner, check_validation"]}
{"id": "C25", "title": "Partition creates disjoint covering sub groups", "statement": "particle_group_partition(group, n, f) gives n sub groups such that each particle with f in [0, n) is in exactly the f-th and no others, for every schedule.", "quantifier": "all groups, n, partition functions and interleavings", "why_tests_cant": "schedule dependent", "anchors": ["include/neso_particles/particle_sub_group/particle_group_partition.hpp", "src/particle_sub_group/particle_group_partition.cpp"]}
{"id": "C26", "title": "Departing particle identification assigns unique slots", "statement": "For every schedule, identification lists exactly the particles whose rank property names another valid rank, each once; the slots of the particles going to one rank are 0..count-1 without repeats; ranks to send to are listed once and the rank map inverts that list.", "quantifier": "all groups, ranks and interleavings", "why_tests_cant": "schedule dependent", "anchors": ["src/departing_particle_identification.cpp: identify"]}
{"id": "C27", "title": "Packing then unpacking reproduces the particles", "statement": "Unpacking the bytes packed for a rank appends to cell 0 of the receiving group exactly the packed particles with every REAL and INT component equal, for all property sets and component counts.", "quantifier": "all property sets, component counts, numbers of particles", "why_tests_cant": "byte layout arithmetic for all sets of properties", "anchors": ["src/packing_unpacking.cpp: ParticlePacker::pack, ParticleUnpacker::unpack"]}
{"id": "C28", "title": "Global move conserves particles", "statement": "global_move on all ranks delivers each particle to the rank named by its rank property, and loses, duplicates or changes none, for every order in which messages and device threads are processed.", "quantifier": "all numbers of ranks, all distributions, all message arrival orders", "why_tests_cant": "nondeterministic communication", "anchors": ["include/neso_particles/global_move.hpp", "include/neso_particles/global_move_exchange.hpp"]}
{"id": "C29", "title": "Edge counting discovers exactly the ranks that will send", "statement": "After get_remote_ranks each rank knows exactly the set of ranks that named it (each once) together with the value each sent, for every arrival order; ordered count exchange pairs values with the right rank.", "quantifier": "all communication graphs and arrival orders", "why_tests_cant": "nondeterministic communication", "anchors": ["src/communication/communication_edges_counter.cpp", "include/neso_particles/global_move_exchange.hpp"]}
{"id": "C30", "title": "Local move conserves particles and rejects unreachable ranks", "statement": "local_move delivers every particle whose second rank component names a reachable neighbour to that rank unchanged and aborts if a particle names an unreachable rank; others stay.", "quantifier": "all neighbour graphs and distributions", "why_tests_cant": "all graphs and distributions", "anchors": ["include/neso_particles/local_move.hpp"]}
{"id": "C31", "title": "Neighbour all to all delivers edge k to edge k", "statement": "The replacement neighbour exchange delivers the data sent on the k-th edge from a to b to the k-th edge into b from a, for multigraphs and any message order.", "quantifier": "all directed multigraphs with consistent edge lists", "why_tests_cant": "needs all multigraphs", "anchors": ["src/communication/communication_utility.cpp: NP_MPI_Neighbor_alltoall, NP_MPI_Neighbor_alltoallw"]}
{"id": "C32", "title": "Tree reduction of sets yields the union", "statement": "set_reduce_union returns the union of all ranks' sets on the root and the empty set elsewhere, and set_all_reduce_union returns the union everywhere, for every communicator size, with every send matched by one receive.", "quantifier": "all communicator sizes and sets", "why_tests_cant": "tests use a few communicator sizes", "anchors": ["include/neso_particles/communication/communication_utility.hpp: set_reduce_union, set_all_reduce_union"]}
{"id": "C33", "title": "Mesh hierarchy indexing round trips", "statement": "tuple_to_linear and linear_to_tuple (coarse, fine and global) are mutually inverse bijections between in range tuples and [0, ncells).", "quantifier": "all dimensions, extents and subdivision orders", "why_tests_cant": "all sizes", "anchors": ["src/mesh_hierarchy.cpp: tuple_to_linear_*, linear_to_tuple_*"]}
{"id": "C34", "title": "Cell claiming elects one owner deterministically", "statement": "After claim_finalise all ranks agree on the owner of each cell: the highest rank among those whose claim weight is the maximum for the cell; an unclaimed cell has no owner; independent of the order of claims and of which ranks share nodes.", "quantifier": "all claim sets, weights, orders and node layouts", "why_tests_cant": "remote atomics in any order", "anchors": ["src/mesh_hierarchy.cpp: claim_initialise, claim_cell, claim_finalise, get_owner"]}
{"id": "C35", "title": "Neighbour cells of the mesh hierarchy", "statement": "get_neighbour_mh_cells returns each fine cell within the requested offset of the given cell(s) in every dimension, with periodic wrap if requested, and no others.", "quantifier": "all hierarchies, cells and offsets", "why_tests_cant": "all offsets including those larger than the mesh", "anchors": ["src/mesh_hierarchy.cpp: get_neighbour_mh_cells"]}
{"id": "C36", "title": "Global mapping names the hierarchy cell that contains the particle", "statement": "For a position inside the domain the coarse and fine indices computed on the device identify the fine cell containing the position, the linear index is in range, and positions on the upper boundary go to the last cell.", "quantifier": "all meshes and positions (exact arithmetic)", "why_tests_cant": "continuum of positions", "anchors": ["src/global_mapping.cpp: MeshHierarchyGlobalMap::execute", "include/neso_particles/mesh_hierarchy.hpp: MeshHierarchyDeviceMapper"]}
{"id": "C37", "title": "Cartesian cell binning puts particles in the containing cell", "statement": "For a position inside the rank's subdomain CartesianCellBin assigns the local cell whose box contains it, and every assigned cell is in range for every position.", "quantifier": "all meshes, subdomains and positions (exact arithmetic)", "why_tests_cant": "continuum of positions", "anchors": ["src/cartesian_mesh/cartesian_cell_bin.cpp"]}
{"id": "C38", "title": "Periodic wrapping maps into the domain and preserves the position modulo the extent", "statement": "CartesianPeriodic leaves each coordinate in [0, extent) and changes it by an integer multiple of the extent, leaves positions that are already inside unchanged, and the masked variant touches only masked dimensions.", "quantifier": "all extents and positions (exact arithmetic)", "why_tests_cant": "continuum of positions", "anchors": ["src/cartesian_mesh/cartesian_periodic.cpp"]}
{"id": "C39", "title": "Cartesian mesh cells are owned by exactly one rank", "statement": "The owned cell ranges of the ranks partition the global mesh, get_mesh_tuple_owning_rank returns the rank whose range contains the tuple, and local cell index <-> global tuple maps are mutually inverse.", "quantifier": "all dimensions, cell counts and rank grids", "why_tests_cant": "all decompositions", "anchors": ["src/cartesian_mesh/cartesian_h_mesh.cpp: CartesianHMesh::CartesianHMesh, get_owned_cells, get_mesh_tuple_owning_rank, get_global_cell_tuple_index, mesh_tuple_to_mh_tuple"]}
{"id": "C40", "title": "Cartesian face identifiers are a bijection", "statement": "get_face_linear_index_from_tuple and get_face_id_as_tuple are mutually inverse for 2D and 3D meshes, face ids are 0..nfaces-1, and each boundary face is owned by exactly one rank: the one that owns the adjacent cell.", "quantifier": "all 2D and 3D meshes", "why_tests_cant": "all sizes", "anchors": ["src/cartesian_mesh/cartesian_h_mesh.cpp: get_face_id_as_tuple, get_face_linear_index_from_tuple, get_mesh_tuple_owning_face_tuple, get_face_id_owning_rank, compute_owned_face_indices"]}
{"id": "C41", "title": "Local mapper sends particles to the owning rank", "statement": "For a particle whose containing cell is owned or within the halo stencil of this rank, the Cartesian local mapper writes the owning rank; otherwise it leaves -1.", "quantifier": "all decompositions, stencil widths and cells", "why_tests_cant": "all decompositions", "anchors": ["src/cartesian_mesh.cpp: CartesianHMeshLocalMapperT"]}
{"id": "C42", "title": "Rank grid choice is valid", "statement": "Whenever CartesianHMesh construction accepts a rank grid, the product of its dimensions is the communicator size and no dimension exceeds the cell count; the candidate generators preserve the product.", "quantifier": "all communicator sizes and cell counts", "why_tests_cant": "all combinations", "anchors": ["src/communication/communication_utility.cpp: get_reordered_cart_decomp, get_lower_dimension_cart_decomp, get_single_dimension_cart_decomp", "src/cartesian_mesh/cartesian_h_mesh.cpp: lambda_valid_decomp"]}
{"id": "C43", "title": "Bounding box claims cover exactly the overlapped cells", "statement": "bounding_box_map lists each fine cell whose overlap with the box has positive volume exactly once, with that volume, and lists no other cell.", "quantifier": "all boxes and hierarchies (exact arithmetic)", "why_tests_cant": "continuum of boxes", "anchors": ["src/external_interfaces/common/local_claim.cpp: bounding_box_map, overlap_1d, LocalClaim::claim"]}
{"id": "C44", "title": "Overlay mesh cells", "statement": "OverlayCartesianMesh linear indices are a bijection, get_cell_in_dimension returns the containing cell clamped to the mesh, and get_intersecting_cells returns every cell that intersects the box once, in range.", "quantifier": "all meshes, points and boxes (exact arithmetic)", "why_tests_cant": "continuum of boxes", "anchors": ["src/external_interfaces/common/overlay_cartesian_mesh.cpp", "include/neso_particles/external_interfaces/common/overlay_cartesian_mesh.hpp"]}
{"id": "C45", "title": "Serialisation round trip", "statement": "SerialContainer::get returns exactly the sequence of objects appended, for any sequence of constructions and appends, for objects of any byte sizes, and cell buffers survive nesting.", "quantifier": "all sequences of byte strings", "why_tests_cant": "all sizes including zero", "anchors": ["include/neso_particles/mesh_hierarchy_data/serial_container.hpp", "include/neso_particles/mesh_hierarchy_data/mesh_hierarchy_container.hpp: MHCellBuffer"]}
{"id": "C46", "title": "Mesh hierarchy container gathers all contributions of a cell", "statement": "After gather(cells) a rank's get(cell) returns exactly the objects contributed by all ranks to that cell (each once), and nothing if the cell has no owner; repeating gather changes nothing.", "quantifier": "all contributions, owners, request histories and arrival orders, with cell indices that fit into an int", "why_tests_cant": "communication orders and repeated gathers", "anchors": ["include/neso_particles/mesh_hierarchy_data/mesh_hierarchy_container.hpp: gather, get"]}
{"id": "C47", "title": "Blocked binary tree behaves as a map", "statement": "After any sequence of add calls a lookup of a key returns the value last added for it, or reports absence if never added, for all keys including negative ones.", "quantifier": "all finite sequences of adds, all keys and node widths", "why_tests_cant": "all key patterns and tree shapes", "anchors": ["include/neso_particles/containers/blocked_binary_tree.hpp"]}
{"id": "C48", "title": "Lookup table behaves as a partial map", "statement": "LookupTable returns the last value added for keys in range, absence for unset or out of range keys, and rejects out of range adds.", "quantifier": "all sequences of adds and keys", "why_tests_cant": "all histories", "anchors": ["include/neso_particles/containers/lookup_table.hpp"]}
{"id": "C49", "title": "ND indexing is a row major bijection", "statement": "NDIndex::get_linear_index is a bijection from in range index tuples onto [0, size) with the last index fastest.", "quantifier": "all ranks and shapes", "why_tests_cant": "all shapes", "anchors": ["include/neso_particles/containers/nd_index.hpp"]}
{"id": "C50", "title": "Resource stack never hands out one resource twice", "statement": "Along every history of get/restore a resource that is held is not handed out again, a restored resource is cleaned before reuse, and free succeeds only when everything was restored.", "quantifier": "all finite histories", "why_tests_cant": "all histories", "anchors": ["include/neso_particles/containers/resource_stack.hpp"]}
{"id": "C51", "title": "Random samples are not reused", "statement": "For the atomic block RNG, over all loops in a program run and all schedules, no drawn sample is returned as valid by two kernel calls; reads past the buffer are reported as invalid samples and mark the state invalid.", "quantifier": "all histories of loops, read counts and interleavings", "why_tests_cant": "schedule and history dependent", "anchors": ["include/neso_particles/containers/rng/host_atomic_block_kernel_rng.hpp", "include/neso_particles/containers/rng/host_rng_common.hpp"]}
{"id": "C52", "title": "Per particle random numbers are distinct buffer entries", "statement": "PerParticleBlockRNG gives each (particle, component) of a loop its own entry inside the filled buffer.", "quantifier": "all loops and component counts", "why_tests_cant": "index arithmetic for all sizes", "anchors": ["include/neso_particles/containers/rng/host_per_particle_block_rng.hpp: PerParticleBlockRNG::at"]}
{"id": "C53", "title": "Buffer reallocation keeps contents and capacity", "statement": "BufferBase::realloc/realloc_no_copy leave a buffer at least as large as requested; realloc keeps the existing contents and never writes outside the new allocation.", "quantifier": "all histories of sizes and factors", "why_tests_cant": "all sizes", "anchors": ["include/neso_particles/device_buffers.hpp: realloc, realloc_no_copy"]}
{"id": "C54", "title": "Host pair list waves are conflict free", "statement": "After any sequence of push_back calls on the host pair list, two pairs of the same cell in the same wave share no particle, waves are numbered contiguously from zero, every pushed pair appears exactly once, and pairs that share a particle are executed in the order they were pushed.", "quantifier": "all push sequences", "why_tests_cant": "all histories", "anchors": ["src/pair_loop/cellwise_pair_list_host.cpp: push_back, get_next_wave, set_next_wave"]}
{"id": "C55", "title": "NTC sampler produces valid pairs and waves for every schedule", "statement": "The NTC pair sampler outputs the requested number of pairs per cell; within a block pairs of the same wave share no particle; wave numbers are below the reported wave count; when sampling within one sub group the two particles differ; every index names a particle of the right sub group, for the CPU and GPU algorithms and all schedules.", "quantifier": "all occupancies, pair counts, random values in [0,1) and interleavings", "why_tests_cant": "schedule and RNG dependent", "anchors": ["src/algorithms/dsmc/pair_sampler_ntc.cpp"]}
{"id": "C56", "title": "Sampling without replacement never reuses a particle", "statement": "PairSamplerNoReplacement outputs, per collision cell, the requested number of pairs in which no particle appears twice, when the request is at most the maximum number of pairs reported by get_max_num_pairs.", "quantifier": "all collision cells, counts and random values", "why_tests_cant": "RNG dependent", "anchors": ["src/algorithms/dsmc/pair_sampler_no_replacement.cpp", "src/algorithms/dsmc/collision_cell_partition.cpp: get_max_num_pairs"]}
{"id": "C57", "title": "Collision cell partition lists each particle under its cell and species", "statement": "After construct, for every schedule, the entries for (mesh cell, collision cell, species) are exactly the layers of the particles with these labels, each once; species ids not registered are ignored.", "quantifier": "all labelings and interleavings", "why_tests_cant": "schedule dependent", "anchors": ["src/algorithms/dsmc/collision_cell_partition.cpp: construct", "include/neso_particles/algorithms/dsmc/collision_cell_partition.hpp"]}
{"id": "C58", "title": "Pair loops execute every pair exactly once in wave order", "statement": "A pair loop over pair lists calls the kernel exactly once per pair in the requested cells, all pairs of a wave complete before the next wave of the same cell and list starts, and pair indices are unique in 0..total-1.", "quantifier": "all pair lists, local sizes and cell ranges", "why_tests_cant": "all shapes", "anchors": ["include/neso_particles/pair_loop/particle_pair_loop_cellwise_pair_list.hpp", "include/neso_particles/pair_loop/particle_pair_loop_cellwise_pair_list_block.hpp", "include/neso_particles/pair_loop/cellwise_pair_list.hpp"]}
{"id": "C59", "title": "Unseen value extractor reports each value once", "statement": "Over any history of extract calls each value is returned by the first call whose particles contain it and never again.", "quantifier": "all histories and value multisets", "why_tests_cant": "all histories", "anchors": ["include/neso_particles/algorithms/unseen_value_extractor.hpp"]}
{"id": "C60", "title": "Cellwise reductions combine exactly the particles of the cell", "statement": "reduce_dat_component(s)_cellwise leaves each selected CellDatConst entry equal to the old value combined with the values of all particles of the cell (or selection) under the operation, and leaves other entries unchanged, for every work group size.", "quantifier": "all occupancies, work group sizes, commutative associative operations", "why_tests_cant": "all sizes", "anchors": ["include/neso_particles/algorithms/reduce_dat_cellwise.hpp"]}
{"id": "C61", "title": "Specular reflection preserves speed and reverses the normal velocity", "statement": "For a unit normal reflect_trajectory preserves kinetic energy, negates the normal component, preserves tangential components, does not depend on the sign of the normal, and is an involution.", "quantifier": "all velocities and unit normals (exact arithmetic)", "why_tests_cant": "continuum", "anchors": ["include/neso_particles/boundary/boundary_reflection.hpp: reflect_trajectory"]}
{"id": "C62", "title": "Boundary truncation leaves the particle on its path before the wall", "statement": "truncate_trajectory places the particle on the segment between its previous position and the intersection point and scales the last time increment by a factor in [0,1], keeping the time bookkeeping consistent.", "quantifier": "all positions, intersection points and reset distances (exact arithmetic)", "why_tests_cant": "continuum", "anchors": ["include/neso_particles/boundary/boundary_truncation.hpp: truncate_trajectory"]}
{"id": "C63", "title": "Boundary face exchange delivers to the owner", "statement": "After extend_exchange_pattern, exchanging face data delivers to each owner exactly the values held by other ranks for each of its faces, and the reverse exchange gives each holder the owner's value for each face.", "quantifier": "all ranks, patterns and histories of extensions", "why_tests_cant": "communication and histories", "anchors": ["src/boundary/boundary_mesh_interface.cpp: extend_exchange_pattern", "include/neso_particles/boundary/boundary_mesh_interface.hpp"]}
{"id": "C64", "title": "Parallel advection initialisation ends at the requested positions", "statement": "On a Cartesian mesh the start point of parallel_advection_initialisation is in a cell that the rank owns and is binned into this cell. The stepping of parallel_advection_initialisation stays on the segment from the start point to the requested position and reaches the requested position after the last step, for every number of steps >= 1.", "quantifier": "all step counts and positions (exact arithmetic), all Cartesian meshes, decompositions and ranks", "why_tests_cant": "continuum", "anchors": ["src/parallel_initialisation.cpp"]}
{"id": "C65", "title": "Device mesh hierarchy mapper index conversions", "statement": "Converting an in range (coarse, fine) tuple to Cartesian fine cell coordinates and back gives the same tuple, and conversely. The untruncated index of a position is the index of the fine cell interval that contains it, also outside of the domain.", "quantifier": "all mesh hierarchies, all tuples, all positions (exact arithmetic)", "why_tests_cant": "unbounded and continuous domains, cell boundaries", "anchors": ["include/neso_particles/mesh_hierarchy.hpp: MeshHierarchyMapper (MeshHierarchyDeviceMapper)"]}
{"id": "C66", "title": "Halo neighbours of a Cartesian mesh rank", "statement": "CartesianHMesh::get_local_communication_neighbours on a rank lists, without repetition, exactly the ranks which own a mesh cell that is within the stencil width, counted periodically in every dimension, of a cell the rank owns; no such rank is missing, so particles that move by at most the halo width can always be sent by the local move.", "quantifier": "all meshes, rank grids, rank numberings, stencil widths and ranks", "why_tests_cant": "Tests run on a handful of ranks and meshes, where every rank is a neighbour of every other; the periodic wrap with wide stencils and thin subdomains needs all combinations.", "anchors": ["src/cartesian_mesh/cartesian_h_mesh.cpp CartesianHMesh::CartesianHMesh (neighbour_ranks)", "src/cartesian_mesh/cartesian_h_mesh.cpp CartesianHMesh::get_local_communication_neighbours"]}
{"id": "C67", "title": "Reduction access to a CellDatConst combines every value exactly once", "statement": "After a particle loop with reduction access to a CellDatConst, each entry of each visited cell is the old value combined with every value the kernel passed to combine for that entry over the particles of the cell (or of the sub group in the cell), and the entries of all other cells are unchanged, for every accepted work group size, stride and order of the work items and atomic updates. Work group sizes that are not powers of two are rejected.", "quantifier": "all occupancies, sub groups, kernels, work group sizes, strides, numbers of bins, contents of local memory, orders of work items, work groups and atomic updates, commutative associative operations", "why_tests_cant": "tree reductions in local memory with partially filled work groups behave differently for each size, occupancy and schedule", "anchors": ["include/neso_particles/containers/cell_dat_const.hpp (Reduction::combine, reduction_initialise, reduction_finalise, pre_loop)", "include/neso_particles/loop/particle_loop_reduction.hpp", "include/neso_particles/particle_sub_group/particle_loop_sub_group_reduction.hpp"]}
{"id": "C68", "title": "Where a trajectory leaves a Cartesian mesh", "statement": "For a particle which was strictly inside of the domain before a step and is not strictly inside after it, the trajectory intersection of a two or three dimensional Cartesian mesh always finds an intersection; the reported point is on the straight path of the particle, on the plane of the reported side and (up to the tolerance) in the domain, the path is inside of the domain before it and outside after it. Particles still strictly inside are not reported. With tolerance zero the point is the only such point.", "quantifier": "all extents, tolerances below the extents, previous positions strictly inside, positions not strictly inside, two and three dimensions", "why_tests_cant": "the case split over planes, corners and tolerances depends on real valued positions; tests sample a few trajectories", "anchors": ["include/neso_particles/cartesian_mesh/cartesian_trajectory_intersection.hpp (post_integration_inner)", "include/neso_particles/device_functions.hpp (line_segment_intersection_2d_x_axis_aligned, plane_intersection_3d_xy_plane_aligned)"]}
{"id": "C69", "title": "Particles that leave a Cartesian mesh are handed to the right boundary group", "statement": "pre_integration stores the position of every particle of the iteration set as its previous position. After the particles have been moved anywhere, post_integration returns one sub group for each boundary group. The sub group of a boundary group has exactly the particles that are not strictly inside of the domain any more and whose path left the domain through one of the sides of the group, each once. For each of them the stored intersection point is where the path left, the normal is the unit normal of the side pointing into the domain, and the metadata are the label of the group and the id of the face, on that side, of the cell that contains the point. If the groups cover all sides each such particle is in exactly one sub group. A side number that does not exist is an error.", "quantifier": "every Cartesian mesh of two or three dimensions, tolerance smaller than the cells, boundary groups with different labels and without common sides, group or sub group of particles (any nesting of selectors), old positions strictly inside of the domain, new positions anywhere, contents of new memory and execution order of the loops", "why_tests_cant": "the assignment goes through three buffers indexed in different ways (by loop index of the sub group, by particle, by component) filled in any order; tests use a few groups and particles, whereas an index clash only shows up for particular counts per cell and orders", "anchors": ["include/neso_particles/cartesian_mesh/cartesian_trajectory_intersection.hpp: CartesianTrajectoryIntersection::pre_integration_inner, post_integration_inner", "src/cartesian_mesh/cartesian_trajectory_intersection.cpp: setup", "src/boundary/boundary_interaction_specification.cpp: add_boundary_interaction_dats"]}
{"id": "C70", "title": "Functions on boundary faces hold the sums over all particles that hit each face, on all ranks", "statement": "A function on the faces of a boundary group has one value per face, held by the rank that owns the face; get_dofs returns the values of the faces owned by the calling rank. function_project sets the value of every face to the sum of the values of all particles, on all ranks, that hit the face, times the inverse cell width; particles that hit no face of the group and the old values of the function have no effect. The same holds for initialise, any number of contributions with calls of post_integration between them, and finalise, unless a face that is hit for the first time lies in a part of the staging buffer that was not cleared. function_evaluate gives every particle the value of the face that it hit, as it is at that time after any fill, set_dofs or projection, on whichever rank the face is owned. All ranks complete every such history. The sum of the values over all faces is the sum over all particles.", "quantifier": "every number of ranks, distribution of the faces, history of post_integration, fill, set_dofs, project and evaluate calls, values, contents of new memory, order of atomic additions and messages, with and without device aware MPI", "why_tests_cant": "the values go through staging buffers that are kept, grown and not cleared between calls and through an exchange whose pattern depends on the whole history of hit faces; tests run a few steps on a few ranks and new memory is mostly zero", "anchors": ["src/cartesian_mesh/cartesian_trajectory_intersection.cpp: CartesianTrajectoryIntersection::function_project_initialise, function_project_contribute, function_project_finalise, function_evaluate", "src/cartesian_mesh/cartesian_h_mesh_function.cpp: CartesianHMeshFunction::fill, set_dofs, get_dofs", "src/boundary/boundary_mesh_interface.cpp: BoundaryMeshInterface::exchange_from_device, exchange_to_device"]}
{"id": "C71", "title": "Every face that a departing particle hits is registered, and functions on the sides collect all particles", "statement": "CartesianTrajectoryIntersection gives each boundary group, on each rank, exactly the face cells of its sides which the rank owns, each once, and each face cell of the sides is owned by one rank. After any history of collective calls of post_integration, the exchange of each group knows on each rank exactly the face cells found in the metadata of the particles returned so far for that group, so no later projection or evaluation of such particles can miss a face. Projecting a property of such particles onto a new function gives each face cell, on its owner, the scaled sum over all particles on all ranks that hit it, and evaluating the function gives each particle the value of its face.", "quantifier": "All Cartesian meshes in 2D and 3D, decompositions, boundary groups without repeated sides, histories of post_integration calls with any particles strictly inside before the step, schedules, memory contents and MPI neighbour orders.", "why_tests_cant": "The registration depends on which faces were hit in all earlier calls on all ranks; a test checks a few steps of a few particles on one decomposition.", "anchors": ["include/neso_particles/cartesian_mesh/cartesian_trajectory_intersection.hpp: CartesianTrajectoryIntersection::post_integration", "src/cartesian_mesh/cartesian_trajectory_intersection.cpp: CartesianTrajectoryIntersection constructor, create_function, function_project, function_evaluate", "include/neso_particles/algorithms/unseen_value_extractor.hpp: UnseenValueExtractor::extract", "src/cartesian_mesh/cartesian_h_mesh.cpp: get_all_face_cells_on_face, get_face_id_owning_rank"]}
{"id": "C72", "title": "A hybrid move followed by a cell move puts every particle into the cell of the mesh it is in", "statement": "On a Cartesian mesh with particles anywhere in the domain, hybrid_move called on all ranks leaves every particle on the rank that owns the mesh cell which contains its position, and a following cell_move puts it into the row of that cell on that rank. No particle is lost or duplicated, and no property value changes except the first two components of the MPI rank and the first component of the cell id. Sub groups made before are invalid afterwards, and the step can be repeated. The owner map which the steps use is the one which the constructor of the mesh makes, and it is the same on all nodes.", "quantifier": "All Cartesian meshes, numbers of ranks, decompositions, halo widths, distributions of ranks to nodes, particles in the domain (its ends included), schedules of all loops, orders of remote increments and message arrivals, previous memory contents, and any number of steps.", "why_tests_cant": "The path of a particle depends on where it is relative to the halo of its rank, on which of the two moves takes it, and on the interleaving of ranks and work items; tests run a few ranks and a few steps.", "anchors": ["src/particle_group.cpp: ParticleGroup::hybrid_move, ParticleGroup::cell_move", "src/cartesian_mesh.cpp: CartesianHMeshLocalMapperT::map, map_cells", "src/cartesian_mesh/cartesian_cell_bin.cpp: CartesianCellBin", "src/global_mapping.cpp: MeshHierarchyGlobalMap::execute", "src/global_move.cpp, src/local_move.cpp"]}
{"id": "C73", "title": "Arrays accumulate every contribution of a particle loop", "statement": "After a particle loop with add access to a GlobalArray is executed, every rank holds its previous values plus the sum of all values which the kernels of all ranks passed to add, each exactly once, also if some ranks have nothing to visit; after a history of executions and fills get returns the initial or last filled value plus all contributions since, and ranks which never fill agree. A LocalArray accumulates the contributions of its own rank for every accepted history of submissions and waits, and fetch_add returns the value before each addition, so that counting with it hands out unique consecutive indices. (Several cell range submissions of one loop before a wait, or two loops in flight, with add access to the same GlobalArray do not accumulate: only the last submission counts.)", "quantifier": "all numbers of ranks, array sizes, particle distributions, requested cells per rank, kernels, orders of the atomic additions, contents of reused buffers, histories of executes, fills, submits and waits", "why_tests_cant": "the order of the atomic additions, the contents of reused device buffers and the interleaving of submissions and waits differ from run to run; a test sees one of them", "anchors": ["include/neso_particles/containers/global_array.hpp: GlobalArray, impl_pre_loop_add, impl_post_loop_add, fill, get", "include/neso_particles/containers/local_array.hpp: LocalArray, fetch_add, fill, set, get, realloc_no_copy", "include/neso_particles/loop/particle_loop.hpp: ParticleLoop::submit, wait, execute"]}
{"id": "C74", "title": "Particle sets read from a group hold exactly the requested particles", "statement": "get_particles of a group, for cells and layers that name particles of the group (repetitions allowed), returns a particle set whose properties are those of the group, whatever properties were added or removed before, and in which particle i has all values of the i-th requested particle; any other request is rejected. get_particles of a sub group does the same for the layers of the sub group. Adding the set to a group with add_particles_local appends copies of the particles to the cells they came from, in the order of the request. Removing a sub group removes exactly its particles. A new ParticleSet holds zeros; set and assignment through at change exactly the addressed component or element; set from another set copies exactly the common properties and is rejected if they do not fit. (at does not check the particle index: index npart of one component reads particle 0 of the next.)", "quantifier": "all groups, properties, requests, sub groups made by any nesting of selectors, histories of calls that change the properties, orders of the work items, contents of staging buffers, argument values of the ParticleSet functions", "why_tests_cant": "the staging layout depends on the number and sizes of all REAL and INT properties and on the order of the work items, and the specification depends on the history of added and removed properties; a test sees one layout and one history", "anchors": ["src/particle_group.cpp: ParticleGroup::get_particles, remove_particles, add_particle_dat, remove_particle_dat", "src/particle_sub_group/particle_sub_group_base.cpp: ParticleSubGroup::get_particles", "src/particle_set.cpp: ParticleSet::at, set, contains", "src/particle_group_pointer_map.cpp: ParticleGroupPointerMap", "include/neso_particles/particle_spec.hpp: ParticleSpec::push, remove"]}
{"id": "C75", "title": "Trajectories written to an H5Part file are read back on any number of ranks", "statement": "H5Part::write adds one step that holds, for every particle of the group or sub group on every rank, once, the values of all requested properties and the position, whatever the orders in which particles are visited and ranks write; the step has the requested number or the next one, and all earlier steps keep their contents over any history of calls. H5Part::read of that step on any number of ranks gives each rank a contiguous, balanced part of the particles, so each particle that was written arrives on exactly one rank with its values, and positions can be taken from x, y, z. The names of the datasets of a step are different whenever the names of the written properties are. write is rejected if the step exists, if a property does not exist, or if two written properties have the same name (REAL and INT included). A step at which no rank has a particle is written but cannot be read.", "quantifier": "all numbers of writing and reading ranks, groups, sub groups made by any nesting of selectors, distributions of particles including ranks and cells without particles, property names, component counts, step numbers, sequences of writes, orders of visits and of writes, contents of buffers", "why_tests_cant": "offsets depend on the counts of all ranks, columns on the counts of all cells, and the part that a reader gets on both the number of particles and of readers; clashes of names depend on the strings; a test fixes all of them and usually reads with as many ranks as wrote", "anchors": ["include/neso_particles/particle_io.hpp: H5Part, write_dat_column_wise, write_inner", "src/particle_io.cpp: H5Part::write, H5Part::read", "src/particle_set.cpp: ParticleSet", "include/neso_particles/utility.hpp: get_decomp_1d"]}
{"id": "C76", "title": "A loop given a list of names accesses the particle data of these names", "statement": "A particle loop over a group or sub group that is given a SymVector (a list of property names) accesses, name by name and in the order of the list, the particle data that the names mean when the loop runs: the ephemeral dat of the sub group if there is one, and the property of the group otherwise. This is what a loop given the names one by one accesses. The loop is rejected if a name is not known. It does not matter which loops ran before, with read or write access, and which lists of names they were given.", "quantifier": "all histories of adding and removing properties and ephemeral dats, particle motion, writes, static sub groups and loops over the group and its sub groups with any lists of names and kinds of access", "why_tests_cant": "pointers are cached per list of names, so what a loop accesses depends on all earlier loops with the same list and on everything that happened since; a test runs one short history", "anchors": ["include/neso_particles/containers/sym_vector_pointer_cache.hpp: SymVectorPointerCache", "include/neso_particles/containers/sym_vector_impl.hpp: create_loop_arg, pre_loop", "src/particle_group.cpp: add_particle_dat, remove_particle_dat", "include/neso_particles/containers/ephemeral_dats.hpp: add_ephemeral_dat, remove_ephemeral_dat", "src/particle_sub_group/particle_sub_group_base.cpp: create_if_required"]}
{"id": "C77", "title": "Ephemeral dats belong to the particles a sub group has now", "statement": "add_ephemeral_dat gives a sub group an ephemeral dat with the requested number of components and in each cell one row for each particle that the sub group has there now; if one of that name exists for these particles it is kept, and a different number of components is rejected. When a loop over the sub group runs, every ephemeral dat it can name has one row for each particle of the sub group. After particles were added, removed or moved, or a property was written on which the sub group depends, the sub group has no ephemeral dats, and a loop cannot access the old ones. Otherwise an ephemeral dat is kept, with its contents, until it is removed. Removing one leaves the others.", "quantifier": "all histories of adding and removing ephemeral dats, particle motion, writes, static status changes, uses of sub groups and loops, numbers of sub groups, cells and particles", "why_tests_cant": "whether an ephemeral dat is dropped depends on which uses of the sub group and which writes happened in between; a dat of the wrong size is out of bounds memory that a test may not notice", "anchors": ["include/neso_particles/containers/ephemeral_dats.hpp: EphemeralDats", "src/containers/ephemeral_dats.cpp: reset_ephemeral_dats, contains_ephemeral_dat, get_ephemeral_dat", "src/particle_sub_group/particle_sub_group_base.cpp: invalidate_ephemeral_dats_if_required, create_inner, create_if_required, static_status", "include/neso_particles/particle_sub_group/particle_loop_sub_group_functions.hpp"]}
{"id": "C78", "title": "The loop over all pairs of a cell calls the kernel once for each pair", "statement": "When the work items of a work group apply CellwiseAllToAll to n items, the kernel is called exactly once for each pair of items (a, b) with a < b < n, with a as row and b as column, and never with anything else, also when n is not a multiple of the block size. All work items call the synchronisation function equally often, so no work item waits for ever. Between two synchronisations no two work items are called with the same column, and no column of one is the row of another, so a kernel may update the column item without a race.", "quantifier": "all numbers of items n, all work group sizes that are powers of two, all pairs of items, all pairs of work items and all phases", "why_tests_cant": "the calls are spread over work items, recursive diagonal blocks and rotated rows; a missed or doubled pair or a shared column in one phase can depend on n relative to the padded size, and a race shows only in some schedules", "anchors": ["include/neso_particles/algorithms/dsmc/cellwise_all_to_all.hpp: CellwiseAllToAll"]}
{"id": "C79", "title": "Validation and statistics of block pair lists tell the truth", "statement": "validate_pair_list returns true for a pair list if and only if its device structure describes, within its arrays, some list of pairs of each cell in which no pair has the same particle twice, pairs that are executed at the same time (the same wave of the same block) have no particle in common, and the number of waves of each block is exactly what its pairs need. A list that it accepts can be read by a pair loop without access outside of the arrays. The pair lists that the NTC pair sampler returns are accepted whenever the two sub groups are the same or disjoint. get_host_pair_list returns exactly the pairs and waves of each cell in order. get_wave_occupancy_counts returns in entry k the number of waves with exactly k pairs, get_mean_wave_occupancy the number of pairs divided by the number as many full waves would hold, and get_global_wave_occupancy_counts the sums over all ranks on rank zero.", "quantifier": "all device structures (including malformed ones for acceptance), numbers of cells, block sizes, numbers of waves, schedules of the kernels, sampled lists, and numbers of ranks", "why_tests_cant": "The validation is itself what tests use to check pair lists; a test of it can only try some lists, while the equivalence is about every possible device structure, valid or not, and about all sampled lists", "anchors": ["include/neso_particles/pair_loop/cellwise_pair_list_block.hpp", "src/pair_loop/cellwise_pair_list_block.cpp: get_host_pair_list, validate_pair_list, get_wave_occupancy_counts, get_mean_wave_occupancy, get_global_wave_occupancy_counts", "include/neso_particles/algorithms/dsmc/pair_sampler_ntc.hpp: PairSamplerNTC::sample"]}
{"id": "C80", "title": "Temporary particle groups are empty, match their source and are not shared", "statement": "After any history in which properties are added to and removed from a particle group and its temporary groups, particles are added and removed, and temporary groups are obtained, copied and given back: ParticleGroupTemporary::get succeeds and returns a group that nobody else holds, that has exactly the properties of the source with the same numbers of components, the same position and cell properties and the same specification up to order, and that has no particles in any cell of any property. The source and the other temporary groups are unchanged. restore succeeds exactly if the pointer given back is the only one to the group.", "quantifier": "all specifications with one position and one cell property, numbers of cells, and finite histories of calls on the source and on the temporary groups", "why_tests_cant": "Whether a reused temporary group still matches depends on everything that was done to it and to its source since it was made; a test can try a few of these histories", "anchors": ["src/particle_group_temporary.cpp: ParticleGroupTemporary::get, restore", "include/neso_particles/particle_group_temporary.hpp: ParticleGroupTemporaryRSI", "src/particle_group.cpp: add_particle_dat, remove_particle_dat, clear, setup_internal", "include/neso_particles/particle_spec.hpp: ParticleSpec::push, remove", "include/neso_particles/containers/resource_stack.hpp"]}
{"id": "C81", "title": "Values at quadrature points come back in the order in which the points were added", "statement": "Each rank adds quadrature points, and the particles made from them move to the ranks and cells that own their positions. Then QuadraturePointMapper::get returns on each rank, for each point which it added and in the order of the calls of add_point, the values that the particle of this point has on whichever rank holds it. After interpolate, value c of the point number x is function c at the position that was given for this point. set gives each point the values that were passed for it, and get returns them. The fourth component of ADDING_RANK_INDEX numbers the local points of each cell without gaps.", "quantifier": "all numbers of ranks, lists of points, rearrangements of the points between ranks and cells, orders of the particle loops, of the remote accesses and of the messages, contents of new memory, numbers of components and values", "why_tests_cant": "Which rank holds which point, and the order in which the loops number the remote points, depends on the mesh, the decomposition and the schedule; a wrong offset only shows for some of them", "anchors": ["src/external_interfaces/common/quadrature_point_mapper.cpp: add_point, add_points_finalise, get, set", "include/neso_particles/external_interfaces/common/quadrature_point_mapper.hpp: compute_num_bytes, compute_offsets, interpolate"]}
{"id": "C82", "title": "Degrees of freedom are copied to and from the order of the external code", "statement": "After any sequence of calls, DOFMapperDG::get returns the index of the last call of set for this cell and degree of freedom, or -1. If the indices are a numbering of all degrees of freedom, copy_to_external writes the value of each degree of freedom to its index in the external buffer and writes nothing else; copy_from_external stores in each degree of freedom the value at its index in the external buffer and leaves the buffer unchanged. If a degree of freedom has no index then copying fails.", "quantifier": "all numbers of cells and degrees of freedom per cell, sequences of calls, numberings, values, orders of the device loop and contents of new memory", "why_tests_cant": "A test that copies to the external buffer and back without changing it in between passes although the second copy never reads the buffer; numberings are permutations of any size", "anchors": ["src/external_interfaces/common/dof_mapper_dg.cpp: DOFMapperDG::set, get, copy_to_external, copy_from_external", "include/neso_particles/external_interfaces/common/dof_mapper_dg.hpp: DOFMapperDGDevice"]}
{"id": "C83", "title": "Counts per cell, loops over matrix elements and copies of particle data do what they say", "statement": "get_npart_cell writes the number of particles of a group or sub group in each cell to the named entry of the matrix of the cell and changes no other entry; rows and columns that are too large and wrong numbers of cells are refused. cell_dat_const_loop_element_wise sets each element of the result to the kernel applied to the elements of the arguments before the loop, where a matrix with one entry counts as that value everywhere, also if the result is one of the arguments; other shapes are refused. copy_particle_dat_to_ephemeral_dat followed by copy_ephemeral_dat_to_particle_dat gives each particle of the sub group in the destination its values of the source and leaves other particles alone; different numbers of components are refused. cellwise_broadcast gives a component of each particle of the group or sub group the value of its cell and changes nothing else.", "quantifier": "all sub groups that selectors can make, matrix shapes, kernels, numbers and aliasing of arguments, values, loop parameters and orders of the device loops", "why_tests_cant": "The row of a particle in an EphemeralDat is its position in the selection and differs from its layer only for some selections; aliasing and broadcasting only matter for some shapes and schedules", "anchors": ["include/neso_particles/algorithms/cellwise_methods.hpp: get_npart_cell, cell_dat_const_loop_element_wise", "include/neso_particles/algorithms/particle_data_movement.hpp: copy_ephemeral_dat_to_particle_dat, copy_particle_dat_to_ephemeral_dat, cellwise_broadcast"]}
{"id": "C84", "title": "Halo cells of an unstructured mesh are exact copies of the cells on the ranks that own them", "statement": "Packing a cell of a DMPlex gives its local id, global id and owning rank together with bytes, also inside containers that are sent to other ranks; unpacking the bytes into a new object gives exactly the cell with all its faces, edges and vertices, their cones, orientations and coordinates in terms of global ids. The halo mesh made from any packed cells, in any order, of any ranks and with any repetitions, has exactly the points of these cells, numbered from zero by dimension and without gaps, with the same cones, orientations and vertex coordinates as the global mesh, and the map of local ids gives for every halo cell the owning rank, local id there and global id and marks every other point. Halo cells are the gathered cells of other ranks. Unpacking into an object that already holds a cell appends to the coordinates of its vertices, and a look up of a local point with a signed global id of a remote point returns point zero.", "quantifier": "all distributed meshes of any dimension and shape of cells, packed cells, orders and repetitions, sizes of PetscInt and PetscScalar, and initial memory", "why_tests_cant": "Errors in the numbering of shared faces and vertices, of cells received twice or of points owned by other ranks show only for particular partitions and orders of arrival", "anchors": ["src/external_interfaces/petsc/dmplex_cell_serialise.cpp: CellSTDRepresentation, DMPlexCellSerialise", "include/neso_particles/external_interfaces/petsc/dmplex_helper.hpp: HaloDMIndexMapper", "src/external_interfaces/petsc/dmplex_helper.cpp: dm_from_serialised_cells, get_copyable_cell, get_local_point_from_global_point, DMPlexHelper", "src/external_interfaces/petsc/dmplex_interface.cpp: create_halos"]}
{"id": "C85", "title": "Particles of two dimensional unstructured meshes are given the cell and rank that contain them", "statement": "For every mesh of triangles and strictly convex quadrilaterals with any halo the 2D mapper can be created, and for each particle it sets the local cell id and the rank of the cell that contains the position: the rank's own cells with their index, halo cells with the rank and id of the owner. If several cells contain the position (shared edges and corners) then it is the last one, halo cells after local cells; the order of the two ends of an edge never matters, whatever the rounding. A particle that no cell contains, also one outside of the bounding box, keeps cell and rank, and mapping a single cell fails if and only if a particle has no rank afterwards. A cell contains exactly the points of the closed polygon that have a corner of the cell above them, and corners at the top other than the first from the left: points of a horizontal top edge are not contained, so that particles on the upper boundary of a mesh can be lost. Creating a mapper changes the bounding box that the local mesh reports.", "quantifier": "all meshes of triangles and strictly convex quadrilaterals in either direction, halos, bounding boxes cached before, particles and positions; the statement about edges for every arithmetic", "why_tests_cant": "Points exactly on edges and corners, cells of any shape across any number of overlay cells and the choice among several candidates are special cases which random particles do not reach", "anchors": ["src/external_interfaces/petsc/particle_cell_mapping/dmplex_2d_mapper.cpp: DMPlex2DMapper", "src/external_interfaces/petsc/dmplex_helper.cpp: cell_contains_point, get_bounding_box, get_cell_bounding_box", "include/neso_particles/device_functions.hpp: consistent_line_orientation_2d", "include/neso_particles/external_interfaces/common/bounding_box.hpp: BoundingBox"]}
{"id": "C86", "title": "Coordinates in cells and on the torus map back to the point they were computed from", "statement": "Barycentric coordinates in a triangle with an area sum to one, give back the point, and are the only ones that do. For a strictly convex quadrilateral the reference coordinates computed for the image of a point of the reference square are this point, and the four weights are not negative, sum to one and give back the point. The computation never divides by zero, and if the point has reference coordinates at all then a result in the reference square is right. Torus coordinates map back to the Cartesian point away from the axis, with a radius that is not negative and angles in (-pi, pi], and the other way round. In the code as it is the quadrilateral claim fails on a line across some cells (the centre of a trapezoid gets coordinates (0, 1000)), and a point outside of a convex cell can get coordinates in the reference square.", "quantifier": "all triangles, strictly convex quadrilaterals in either direction, points, radii and angles, in exact arithmetic", "why_tests_cant": "The cases (which row is eliminated, which root is stable, linear or quadratic, which pair is chosen) depend on the shape of the cell and the point in combinations that random tests meet with probability zero", "anchors": ["include/neso_particles/external_interfaces/common/coordinate_mapping.hpp: triangle_cartesian_to_barycentric, triangle_barycentric_to_cartesian, quad_cartesian_to_collapsed, quad_collapsed_to_cartesian, quad_collapsed_to_barycentric, quad_cartesian_to_barycentric, cartesian_to_torus_cylindrical, torus_cylindrical_to_cartesian"]}
{"id": "C87", "title": "Transfers of cell values between two meshes give the weighted sums over all ranks", "statement": "The coupler of two meshes accepts every coupling map whose entries name cells of mesh B, and rejects any map with an entry that names none. After a forward transfer each component of each cell of B, on the rank that owns it, is the sum over all cells of A on all ranks and all their entries that name it of the forward weight times the value; after a backward transfer each cell of A is the sum over its entries of the backward weight times the value of the cell of B. Values behind those of the cells become zero. This holds after any sequence of transfers with any numbers of components, and for every order in which MPI lists the neighbours. If the forward weights of each cell of A sum to one, totals are conserved; if the two weights of each entry agree, the backward transfer is the transpose of the forward transfer. Transfers with no components or a vector too short are rejected. The owned cells of mesh B must be its first points: with a copy of another rank's cell in front, the transfer leaves the vectors.", "quantifier": "all numbers of ranks, partitions of mesh B with consecutive cell numbers whose owned cells come first, coupling maps, weights, values and components, all orders of neighbours and all sequences of transfers", "why_tests_cant": "Who talks to whom, the four neighbour orders and the offsets of both directions depend on the partition and the map; tests use few ranks, one order and a fresh coupler", "anchors": ["src/external_interfaces/petsc/dmplex_mesh_coupler_dg0.cpp: DMPlexMeshCouplerDG0, prepare_transfer, forward_transfer, backward_transfer", "include/neso_particles/external_interfaces/petsc/dmplex_mesh_coupler_dg0.hpp: DMPlexMeshCouplerDG0MapEntry", "src/external_interfaces/petsc/dmplex_helper.cpp: get_map_from_global_cell_points_to_ranks"]}
{"id": "C88", "title": "Steps that cross the boundary of a two dimensional mesh are reported with the first crossing", "statement": "After pre_integration the earlier position of each particle is its position, and nothing else changed. After a step, post_integration reports a particle in the sub group of a boundary group exactly if its step crosses an edge of the face sets of a group (without tolerance; with a tolerance every reported crossing is one up to the tolerance and every exact crossing is reported). The reported point is on an edge with the reported index and group, and no crossing is closer to where the step started. The reported normal is the unit normal stored for that edge index, and the normal mapper finds it. A particle is in at most one sub group, and only selected particles are reported. The intersection test never divides by zero. Negative groups and labels in two groups are rejected. Steps on or beyond the upper end of the domain are missed, as are all steps if positions have three components.", "quantifier": "all grids, groups, face sets distributed over any nodes and ranks, particles, steps and selections, all histories of earlier calls, all orders of particles and all contents of fresh memory", "why_tests_cant": "Which edges a step meets is decided by two independent discretisations (edges to grid cells, steps to grid cells) that must agree for every position, in a cache that depends on all earlier calls; tests use a handful of steps on one mesh", "anchors": ["include/neso_particles/external_interfaces/petsc/boundary_interaction/boundary_interaction_2d.hpp: BoundaryInteraction2D, TrajectoryIntersect2D, BoundaryNormalMapper", "include/neso_particles/external_interfaces/petsc/boundary_interaction/boundary_interaction_common.hpp: find_intersections_inner, find_cells", "src/external_interfaces/petsc/boundary_interaction/boundary_interaction_2d.cpp: BoundaryInteraction2D, collect_cells", "src/external_interfaces/petsc/boundary_interaction/boundary_interaction_common.cpp: pre_integration", "include/neso_particles/device_functions.hpp: line_segment_intersection_2d"]}
{"id": "C89", "title": "Projection onto and evaluation of piecewise constant functions", "statement": "After any calls, projecting the values of any particles gives in each cell, for each component, the sum of the values of the particles in it divided by the volume of the cell; the quadrature points of the cell hold these values, and the integral over the mesh is the sum over the particles. Values that are set are read back in the order cell, component, and further components become zero; too short vectors and too many components are rejected. Evaluating components the function has gives each particle the value of its cell, or with a quadrature point mapper the values held by the point with number zero of its cell, and no other particle changes. Objects are created exactly for DG functions of order zero in two dimensions with non-zero volumes. Evaluating more components than there are, which is documented to use the existing values, replaces the function by zero.", "quantifier": "all meshes, volumes, particles, numbers of components, points and selections, all histories of earlier calls, all orders in which particles and points are visited", "why_tests_cant": "The table of values is shared by all calls, grows with the number of components and is not always cleared, so what a call does depends on every earlier one; tests project one function and evaluate it", "anchors": ["include/neso_particles/external_interfaces/petsc/project_evaluate/dmplex_project_evaluate_dg.hpp: DMPlexProjectEvaluateDG, project_inner, evaluate_inner", "src/external_interfaces/petsc/project_evaluate/dmplex_project_evaluate_dg.cpp: check_ncomp, get_dofs, set_dofs, get_vtk_data"]}
{"id": "C90", "title": "Projection onto and evaluation of functions given at the vertices of cells", "statement": "After any calls, projecting the values of any particles gives a function which in each cell is the combination, with the weights of the vertices, of vertex values: at a vertex the sum over the particles of the cell of weight times value, times the number of vertices over the volume. The numbered quadrature points hold this function, all other points and all positions are unchanged, and volume times mean vertex value, added up over the cells, is the sum over the particles. Whatever function of this kind the points hold, evaluation gives each of the given particles its value and changes no other particle; an affine function of the position is reproduced exactly in triangles and quadrilaterals. Projection followed by evaluation gives the value of the projected function. After a projection the output has the values at the vertices of the function the points hold. Objects are created exactly for order one in two dimensions on triangles and quadrilaterals with non-zero volumes, when each number of a vertex is that of one point in each cell and the positions of the points determine the function. After an evaluation the output is wrong: the values are multiplied by the number of vertices over the volume.", "quantifier": "all meshes of triangles and quadrilaterals, volumes, particles with weights in their cells, points with weights from zero to one, numbers of components and selections, all histories of earlier calls, all orders in which particles and points are visited, every solver that solves systems with an inverse", "why_tests_cant": "Evaluation reads the points through an inverse matrix per cell which is computed once, from positions in any order; tests use a few fixed meshes, point sets and tolerances, and never look at the output after an evaluation", "anchors": ["include/neso_particles/external_interfaces/petsc/project_evaluate/dmplex_project_evaluate_barycentric.hpp: DMPlexProjectEvaluateBarycentric, setup_matrices, project_inner, evaluate_inner", "src/external_interfaces/petsc/project_evaluate/dmplex_project_evaluate_barycentric.cpp: constructor, get_vtk_data", "include/neso_particles/external_interfaces/petsc/petsc_utility.hpp: invert_matrix"]}
{"id": "C91", "title": "Halos of unstructured meshes cover what a rank is responsible for", "statement": "When a mesh is set up on any number of ranks, every cell of the mesh hierarchy of which some bounding box of a mesh cell covers at least a millionth gets exactly one owner: the rank with the largest share, the highest rank among equals. The halo of each rank consists of cells of other ranks only, and contains every cell of another rank that has a part of an owned hierarchy cell which the rank claims or which is next to one that it owns. So, for every position (faces of hierarchy cells included) in a hierarchy cell owned by a rank, every mesh cell whose bounding box contains the position, and which has parts of owned hierarchy cells only, is a cell of this rank or in its halo. The neighbour ranks are the ranks of the halo cells. The hierarchy covers the bounding box of the mesh and is not made for a flat mesh. Positions in hierarchy cells of which less than a millionth is covered have no owner, which does happen.", "quantifier": "all meshes of one to three dimensions with at most 2^31 hierarchy cells, distributed in any way over any number of ranks and nodes, all orders in which the claims take effect, all positions", "why_tests_cant": "tests run a few meshes on a few ranks; whether a position on a face between hierarchy cells is covered depends on the geometry and the partition", "anchors": ["src/external_interfaces/petsc/dmplex_interface.cpp: DMPlexInterface::create_mesh_hierarchy, get_unowned_cells, claim_mesh_hierarchy_cells, create_halos", "src/external_interfaces/common/local_claim.cpp: bounding_box_claim", "src/mesh_hierarchy.cpp: get_neighbour_mh_cells"]}
{"id": "C92", "title": "Edge labels requested on any rank reach exactly the edges between the given vertices", "statement": "When edges of an unstructured mesh are labelled by giving the global numbers of their end vertices (label_dmplex_edges, collectively), every rank afterwards has, besides the labels it had before, exactly the requested label on exactly those of its points that are edges of both vertices of a request, whichever rank made the request and whether or not the rank owns the vertices. A request for vertices that no rank has as the ends of an edge is reported, and so are argument vectors of unequal sizes. Restrictions proved necessary: the supports of the vertices must be in ascending order, and PetscInt must be as wide as int.", "quantifier": "all numbers of ranks, all parts of meshes with distinct vertex numbers and ascending supports, all requests on all ranks, all labels present before", "why_tests_cant": "The set of edges to label is spread over the ranks in arbitrary ways, and the requests are gathered with offsets that depend on the numbers of requests on all ranks; tests use one mesh with a few ranks and one build of PETSc.", "anchors": ["src/external_interfaces/petsc/dmplex_utility.cpp: label_dmplex_edges, signed_global_id_to_global_id"]}
{"id": "C93", "title": "Particles of unstructured meshes of any dimension get the cell and rank that PETSc finds for their own position", "statement": "DMPlexHostMapper::map, for all particles or for those of one cell, gives each mapped particle the local cell and this rank if PETSc finds its position in the local mesh, otherwise the cell and rank of the owner of the halo cell in which it is found, and -1 for both if it is found in neither. Results are never given to another particle, whichever particles are found where and in whatever order the kernels run. Positions, other components and particles that are not mapped do not change. If PETSc locates points correctly and all cells of the local mesh are owned, then the cell given contains the particle. For a mesh distributed with an overlap the numbers given are not the cell numbers used elsewhere, which is proved with an example.", "quantifier": "all meshes, halos and point location functions, all numbers of particles in all cells, all positions, all orders of the kernel items, all contents of fresh memory, the map of all cells and of any one cell", "why_tests_cant": "Which particles are found locally, in the halo or not at all decides how the results of the second search are matched with particles; tests use one mesh and a few positions.", "anchors": ["src/external_interfaces/petsc/particle_cell_mapping/dmplex_host_mapper.cpp: DMPlexHostMapper::map", "include/neso_particles/loop/particle_loop_index.hpp: Access::LoopIndex::Read::get_loop_linear_index"]}
{"id": "C94", "title": "Sampled positions are in the cells of unstructured meshes, in the numbers asked for", "statement": "uniform_within_dmplex_cell writes exactly the given number of particles from the given offset on, each with the given cell and with the first of its proposed positions that the cell contains, made from numbers of the generator that no other particle uses, and changes nothing else; output that is too small is reported. uniform_within_dmplex_cells gives every cell exactly that many particles, and uniform_density_within_dmplex_cells gives each cell the nearest integer (half way cases away from zero) to density times volume and returns the total; both in the order of the cells, whatever the output held before. The calls return if a position is accepted before the last attempt each time. A position accepted with the last attempt is discarded and reported as not found, so the limit is one less than what is given.", "quantifier": "all meshes, all sequences of random numbers, all numbers of particles, offsets, densities, limits on the attempts, all contents of the output before the call", "why_tests_cant": "Tests sample a few meshes with one seed and a generous limit on the attempts; the claims are about every sequence of random numbers.", "anchors": ["src/external_interfaces/petsc/dmplex_utility.cpp: uniform_within_dmplex_cell, uniform_within_dmplex_cells, uniform_density_within_dmplex_cells"]}
{"id": "C95", "title": "Atomic minimum and maximum made of compare-and-exchange behave as one indivisible operation", "statement": "However the exchanges of any number of concurrent calls of atomic_fetch_max and atomic_fetch_min on an address are mixed with each other and with other atomic operations on it, the calls return, and leave in memory, what they would if they were made one after the other without interruption, in an order that respects which calls returned before others began. Once all calls have returned, the memory holds the largest (smallest) of what it held before and the values of the calls, also for values below the number that the local variable starts with. No call makes more exchanges than there are calls plus one.", "quantifier": "all numbers of calls, all values, all contents of the memory, all starting values of the local variable, all orders in which the exchanges of the calls happen", "why_tests_cant": "The interleavings depend on the hardware and its scheduling; a test sees a few of them and cannot force the rare ones in which the memory changes between two exchanges of a call.", "anchors": ["include/neso_particles/device_functions.hpp: atomic_fetch_max_cas_strong, atomic_fetch_min_cas_strong, atomic_fetch_max, atomic_fetch_min"]}
{"id": "C96", "title": "Inverses of small matrices are exact and fail only for singular matrices", "statement": "For every invertible three by three or four by four matrix the naive_matrix_inverse functions write its inverse, so that the products in both orders are the identity and linear systems are solved. They divide by zero exactly if the matrix is singular. cross_product and the dot products of kernels are the mathematical ones.", "quantifier": "all three by three and four by four matrices and all vectors over any field", "why_tests_cant": "Tests invert a few random matrices with a tolerance; a wrong sign in one of the 96 terms of the four by four case shows only for matrices in which the term matters.", "anchors": ["include/neso_particles/device_functions.hpp: naive_matrix_inverse, dot_product_2d, dot_product_3d, cross_product"]}
{"id": "C97", "title": "The pointer map of a particle group describes the current properties", "statement": "Whatever properties were added and removed and however often the map was used before, the map that kernels get describes exactly the properties that the group has now: their number, their names, memory, components, offsets and bytes per particle, with separate existing memory for each. Asking for it for reading changes nothing; asking for it for writing informs each property once that it is written. Setting the numbers of particles per cell through the map sets them for every present property on host and device and touches nothing else.", "quantifier": "all histories of adding and removing properties, of requests for the map and of setting counts, all names and numbers of components, all contents of new memory and all orders of work items", "why_tests_cant": "A stale pointer or table shows only for particular orders of additions, removals and requests, and then as access to freed memory that often still holds the old values.", "anchors": ["src/particle_group_pointer_map.cpp: ParticleGroupPointerMap::create_const, ParticleGroupPointerMap::create", "include/neso_particles/particle_group_pointer_map.hpp: invalidate, set_npart_cells_host_device", "src/particle_group.cpp: ParticleGroup::add_particle_dat, ParticleGroup::remove_particle_dat"]}
{"id": "C98", "title": "Grids written to VTKHDF files by all ranks are read back cell by cell", "statement": "If every cell has the same quantities and ranks without cells name them, then VTKHDF::write makes a file from which a reader that follows the VTKHDF description gets, for each rank, exactly its cells in their order, with their points, types and quantities on points and cells. All entries of all datasets are written and the datasets have the sizes that the counts of the partitions announce. A second write, or a write to a file of another type, is an error.", "quantifier": "all numbers of ranks, all lists of cells on each rank (also none), all numbers of points per cell, all names and values of quantities and all orders of the writes of the ranks", "why_tests_cant": "The tests write a few cells and look at the file by eye or not at all; offsets that are wrong for some distribution of cells over ranks, for instance for ranks without cells, give a file that opens but shows a different mesh.", "anchors": ["src/external_interfaces/vtk/vtk.cpp: VTKHDF::write", "include/neso_particles/external_interfaces/vtk/vtk.hpp: VTKHDF::write_dataset, VTKHDF::write_dataset_2d, UnstructuredCell"]}
{"id": "C99", "title": "Cartesian meshes and functions on their boundary are written as they are", "statement": "In two and three dimensions get_vtk_cell_data gives, for each cell of the rank in order, a quadrilateral or hexahedron whose points are exactly the corners of that cell, in the order that VTK asks for. get_vtk_face_cell_data gives, for the index of a boundary face, a line or quadrilateral of exactly the corners of its cell that are on its side of the domain, in order around it, for exactly the owned faces of the rank; other indices are rejected. The file of a function on the boundary has, for each rank, the faces of the function in order, each with the value of the function on that face.", "quantifier": "all two and three dimensional meshes and decompositions, all ranks, all cells, all faces of all sides, all cell widths, all functions (any list of faces on each rank, also none) and all orders of the writes of the ranks", "why_tests_cant": "The tests look at the corners of a few cells of one mesh; tables of corners are easy to get wrong for one side only, and VTK shows a twisted cell instead of an error.", "anchors": ["src/cartesian_mesh/cartesian_h_mesh.cpp: CartesianHMesh::get_vtk_cell_points, CartesianHMesh::get_vtk_cell_data, CartesianHMesh::get_vtk_face_cell_points, CartesianHMesh::get_vtk_face_cell_data", "src/cartesian_mesh/cartesian_h_mesh_function.cpp: CartesianHMeshFunction::write_vtkhdf"]}
{"id": "C100", "title": "Plots of mesh hierarchies show exactly the edges of their cells", "statement": "A file from VTKMeshHierarchyCellsWriter, read as a legacy VTK file, has the sizes it announces and consists of exactly the edges of the cells that were pushed (write), of all fine cells (write_all_fine) or of all coarse cells (write_all_coarse), at their places in the domain, with one line per edge and cell. No vertex is stored twice and every vertex is the end of a line. Files do not depend on what the writer wrote before, and only rank 0 writes the files of all cells.", "quantifier": "all mesh hierarchies of one to three dimensions, origins and extents, all lists of pushed cells (with repetitions) and all states that earlier calls left the writer in", "why_tests_cant": "The tests only call the writer; nobody reads the file back, and an error in the numbering of shared vertices shows as stray lines in some meshes only.", "anchors": ["src/utility_mesh_hierarchy_plotting.cpp: VTKMeshHierarchyCellsWriter::get_index, VTKMeshHierarchyCellsWriter::get_lines, VTKMeshHierarchyCellsWriter::write_inner, VTKMeshHierarchyCellsWriter::write_all_fine, VTKMeshHierarchyCellsWriter::write_all_coarse", "include/neso_particles/utility_mesh_hierarchy_plotting.hpp: VTKMeshHierarchyCellsWriter"]}
{"id": "C101", "title": "Local memory in particle loops is private to each particle and fits on the device", "statement": "A particle loop with LocalMemoryBlock and LocalMemoryInterlaced arguments chooses work groups that fit into the local memory of the device, never larger than LOOP_LOCAL_SIZE, as large as powers of two allow, and is launched exactly if the memory of one particle fits. It still calls the kernel once for each particle. Inside the kernel every element of the local memory belongs to one particle: no access of a requested element is outside of what was set aside, and a kernel that reads an element it wrote reads what it wrote last, whatever other particles do at the same time.", "quantifier": "all lists of arguments and their sizes, all amounts of local memory, local sizes, numbers of bins, occupancies and cell ranges, all initial contents of the local memory and all orders in which the accesses of all particles reach it", "why_tests_cant": "Whether two particles share a place depends on the size of the work groups, which depends on the device, the occupancies and the other arguments of the loop; a clash is a race that shows only for some schedules.", "anchors": ["include/neso_particles/containers/local_memory_block.hpp: LocalMemoryBlock, create_loop_arg, create_kernel_arg, get_required_local_num_bytes", "include/neso_particles/containers/local_memory_interlaced.hpp: LocalMemoryInterlaced, create_loop_arg, create_kernel_arg, get_required_local_num_bytes", "src/compute_target.cpp: SYCLTarget::get_num_local_work_items", "include/neso_particles/loop/particle_loop_args.hpp: ParticleLoopArgs::get_local_size_args"]}
{"id": "C102", "title": "The validation of the halos of an unstructured mesh tells the truth", "statement": "DMPlexInterface::validate_halos returns true on all ranks exactly if no owned cell of the two dimensional mesh has more than four vertices and every point of every halo is a copy of the point of the mesh it is said to be: it has the same dimension, the same points (by global number, in the same order) in its cone, the same vertices, and for a cell the rank it is said to be held by is the rank that owns it. If errors are fatal the function never returns false. The returned value is the verdict of one rank only: a rank can return true although the halo of another rank is wrong.", "quantifier": "all numbers of ranks, all distributed two dimensional meshes with arbitrary cells and global numbers, all halos (right or wrong, present or not) and maps to the points they copy, fatal or not", "why_tests_cant": "A validation is only of use if it refuses every wrong halo; tests run it on halos that are right. The rows of all ranks meet in one array by a reduction, so a wrong offset or an overlap shows only for some numberings and distributions.", "anchors": ["src/external_interfaces/petsc/dmplex_interface.cpp: DMPlexInterface::validate_halos", "src/external_interfaces/petsc/dmplex_helper.cpp: DMPlexHelper::get_point_global_index", "include/neso_particles/external_interfaces/petsc/dmplex_interface.hpp: validate_halos"]}
{"id": "C103", "title": "Arrays with several dimensions are functions of their index tuples", "statement": "An NDLocalArray of any shape starts with all elements zero. After any history of fill, set, particle or pair loops that call fetch_add, and assignments in kernels with Write access, reading with at(i0, ..., iN-1) gives the value that the history says for this index tuple and no other, and get() returns the values of all index tuples in lexicographic order, the last index fastest. fetch_add returns the value that the element had, and the array after a loop does not depend on the order of the additions. set is refused exactly for vectors whose size is not the number of index tuples. fetch_add does not check the number of its arguments: without a value it adds the last index.", "quantifier": "all numbers of dimensions and shapes (also with empty dimensions), all initial contents of the memory, all histories with indices inside of the shape, all orders of the additions of a loop", "why_tests_cant": "Tests use one or two small shapes and a few indices; that different tuples never share an element, for any shape and any order of concurrent additions, is a statement over all of them.", "anchors": ["include/neso_particles/containers/nd_local_array.hpp: NDLocalArray, fill, set, get, Access::NDLocalArray::Read::at, Write::at, Add::fetch_add", "include/neso_particles/containers/nd_index.hpp: NDIndex", "include/neso_particles/containers/tuple.hpp: to_tuple, apply_truncated, get_last_arg"]}
{"id": "C104", "title": "What an unstructured mesh reports about its cells is what PETSc holds", "statement": "For every local cell of a DMPlex mesh, get_cell_vertices gives the vertices that PETSc holds for it, in order, and rejects other indices; get_cell_vertex_average gives their mean whatever the argument held before; get_cell_vertices_cdc holds their number and coordinates. get_face_sets gives for each label exactly the faces with that label, each once and in increasing order. Every call of get_volume gives on every rank the sum of the volumes of all cells of all ranks. In two dimensions a VTKHDF file written by all ranks from get_vtk_cell_data holds, in the partition of each rank, the cells of that rank with their vertices, zero as third coordinate and the type of a triangle or quadrilateral, and nothing else. make_quadrature_point_mapper_average adds the mean of the vertices of each cell. If the mean of the vertices of each cell is in the cell then make_quadrature_point_mapper_vertex has in each cell one point at each of its vertices, in order, however the points are ordered in the cells; for cells that are not convex this fails and the loop can read past the end of the table.", "quantifier": "all meshes, numbers of dimensions, cells and vertices per cell, labels of faces, volumes, numbers of calls and ranks, orders of the writes, and orders of the points in their cells", "why_tests_cant": "Tests look at a few small meshes of triangles or quadrilaterals; mixed meshes, halo cells between the local cells, and orders of points or writes are not enumerable.", "anchors": ["src/external_interfaces/petsc/dmplex_helper.cpp: get_cell_vertices, get_cell_vertex_average, get_face_sets, get_vtk_cell_data, get_volume, get_cell_vertices_cdc", "src/external_interfaces/petsc/dmplex_utility.cpp: make_quadrature_point_mapper_vertex, make_quadrature_point_mapper_average"]}
{"id": "C105", "title": "Launches are checked against the limits of the device, and its atomics are checked", "statement": "validate_nd_range accepts a launch exactly if the device can run it: every global size is within the limit of its dimension, every local size is within that of the device and divides the global size, and the work group is not too large. The limits are those of the environment variables, else of the device, with S0 the limit of the last dimension in launches of one, two and three dimensions. A device whose atomic operations work passes check_atomics_sanity, for all random elements and all orders of the operations; it passes exactly if minima and maxima are right, sums of REAL are right up to 1e-8, and sums of integers are wrong by less than their absolute value; with fatal set no failure is returned. The restrictions are needed: for a device without limits per dimension the size of the work group wraps around, a local size of zero is a division by zero, local memory of less than 1024 bytes wraps around for NVIDIA, and a device that loses half of its integer additions passes.", "quantifier": "all numbers of dimensions, limits, global and local sizes (64 bit), environment variables, devices, random elements and orders of the atomic operations", "why_tests_cant": "Tests see the limits of the devices that they run on and a few sizes; whether a check accepts exactly the launches that are legal, or finds every broken device, is about all sizes and all behaviours of devices.", "anchors": ["include/neso_particles/device_limits.hpp: DeviceLimits, validate_range_global, validate_range_local, validate_nd_range", "src/device_limits.cpp: setup_generic, setup_nvidia, setup_env, check_atomics_sanity", "include/neso_particles/device_atomic_sanity_check.hpp: CheckAdd, CheckMin, CheckMax, atomic_binop_check", "include/neso_particles/typedefs.hpp: get_env_size_t"]}
{"id": "C106", "title": "Temporary resources shared by key are exclusive, of the type of the request, reused, and freed once", "statement": "After any history of get_resource, restore_resource and free in which every resource is restored with the key and type of its request: get_resource gives a resource that nobody else holds and that was not freed, constructed for this key and type with the interface of the first request for the key; it fails exactly if the key is in use with another type; it constructs a new resource only if all others of the key are held or freed. A held resource can always be restored, and is then given to the next request for its key. free fails exactly if some resource is held, and otherwise every resource ever constructed has been freed exactly once. The restriction on keys is needed: a resource restored with another key of the same type is accepted and given to the users of that key, and free then fails although nothing is held.", "quantifier": "all histories of requests, restores and frees, all keys, types and interfaces, and all orders of the entries of the map", "why_tests_cant": "Whether two users can get the same temporary buffer, or one leaks, depends on the interleaving of requests of all loops and of all keys; tests run a few.", "anchors": ["include/neso_particles/containers/resource_stack_map.hpp: ResourceStackMap, get_resource_stack, get_resource, restore_resource", "include/neso_particles/containers/resource_stack.hpp: ResourceStack::get, restore, free"]}
{"id": "C107", "title": "Failed assertions in kernels are reported on the host", "statement": "For all histories of resets, kernels with NESO_KERNEL_ASSERT, get_flag and check_and_throw on an ErrorPropagate, whatever its buffers held before it was created: check_and_throw throws exactly if the number of assertions that failed since the last reset is not a multiple of 2^32; so with fewer failures it throws exactly if an assertion failed. With fewer than 2^31 failures get_flag is their number. The order in which the device executes the assertions makes no difference. The bound is needed: if a multiple of 2^32 assertions fail nothing is thrown.", "quantifier": "all histories, all numbers of work items and assertions, all orders of execution, and all initial contents of the buffers", "why_tests_cant": "That no failed assertion of any work item is lost, for any number of loops between the checks and any order of the atomic additions, is about all histories; the wraparound needs 2^32 failures.", "anchors": ["include/neso_particles/error_propagate.hpp: ErrorPropagate, NESO_KERNEL_ASSERT, ResourceStackInterfaceErrorPropagate"]}
{"id": "C108", "title": "Loops with tuples of random number generators read each generator at its index, with new samples", "statement": "After any history of submits and waits of particle loops whose arguments are generators, null generators and nested tuples of them: a loop is accepted exactly if no generator occurs twice in its arguments, at any depth, and none is used by a loop that was submitted and not waited for. In every block of the loop the kernel finds, at each index of the nested tuple, the generator that the user put there, with the samples drawn for this loop. Each generator in the arguments draws samples exactly once per loop, for any number of blocks (none too), others draw none, and waiting draws none. A loop that was accepted is accepted again after it was waited for.", "quantifier": "all nestings of tuples, all generators, all numbers of blocks, and all histories of overlapping loops", "why_tests_cant": "Tests use a few nestings; that no two loops or components can share samples is about all nestings and all overlaps of loops.", "anchors": ["include/neso_particles/containers/rng/tuple_rng.hpp: TupleRNG, Access::TupleRNG::get", "include/neso_particles/containers/rng/host_per_particle_block_rng.hpp: impl_pre_loop_read, impl_get_const, impl_post_loop_read", "include/neso_particles/containers/rng/host_atomic_block_kernel_rng.hpp: impl_pre_loop_read, impl_get_const, impl_post_loop_read", "include/neso_particles/loop/particle_loop.hpp: submit, wait"]}
{"id": "C109", "title": "Profiling reports what happened while it was enabled", "statement": "For all histories of calls on a ProfileMap: the values of an entry grow by the sums of the increments made to its key while profiling was enabled, a set while enabled gives the value, and a reset gives zero. The events are those made while profiling was enabled, in order and with their times. There is one region for each call that ended one while profiling was enabled, in order; each has the keys, the level and the time of a call that started it earlier, so it does not end before it starts if the clock does not go back. A call fails exactly if it ends a region that was never started or, while enabled, one for which start_region returned nothing. The lists in the JSON file have separators between lines and none at the end, and lines determine keys without quotes. Restrictions are needed: enabling profiling between the start and the end of a region makes the end throw, a reset keeps the events, and keys with quotes are not escaped.", "quantifier": "all histories of calls with all keys, values and times, and all nestings and overlaps of regions", "why_tests_cant": "Tests record a few regions with profiling enabled throughout; that nothing is lost, counted twice or attributed to another key must hold for all histories and switches.", "anchors": ["include/neso_particles/profiling.hpp: ProfileMap, ProfileRegion, write_events_json"]}
{"id": "C110", "title": "Uniform positions in the cells of a Cartesian mesh are in the named cells, in the numbers asked for", "statement": "On every rank of a Cartesian mesh, uniform_within_cartesian_cells gives the asked for number of positions in each cell that the rank owns, one cell after the other. Each position is inside of its cell. The cell that is returned with a position is the one that CartesianCellBin gives to this position, or zero for meshes in single cell mode. Every coordinate of every position uses its own sample of the generator.", "quantifier": "all Cartesian meshes, decompositions and ranks, all numbers of particles per cell and all sequences of samples in [0, 1)", "why_tests_cant": "Tests check bounds on one or two meshes with one seed; that no position leaves its cell and that names of cells agree with the binning must hold for all meshes, decompositions and samples.", "anchors": ["src/utility.cpp: uniform_within_cartesian_cells", "include/neso_particles/utility.hpp: uniform_within_extents"]}
{"id": "C111", "title": "Parameters of a compute target are those last set, with defaults from the environment", "statement": "For all histories of calls on a store of parameters: get returns the pointer of the most recent set with the same name, with the value most recently assigned through any pointer to it, and fails if there is none or it is of another type; contains tells if there was a set; a set fails exactly for the null pointer and leaves other names as they are. A new compute target that is made with the default device (gpu_device == 0) has the local size and number of bins of its loops from the environment or else 256 (32 on a CPU) and 4, and cannot be made exactly if one of these variables is not a number. The first particle group on a target takes the hint for the number of particles per cell from the store or else the environment or else zero, and all later groups have the same hint whatever the environment is by then. If a GPU or a CPU is asked for instead there is no store at all. Negative numbers are not rejected: a local size of -1 is 2^64 - 1.", "quantifier": "all histories of making, assigning and setting parameters, all names, all values of environment variables and both kinds of device", "why_tests_cant": "Tests set and get one parameter and run in one environment; aliases, repeated sets and later groups must be right for all histories and environments.", "anchors": ["include/neso_particles/parameters.hpp: Parameters, SizeTParameter", "src/compute_target.cpp: SYCLTarget, get_local_size", "include/neso_particles/particle_group.hpp: ParticleGroup constructor, npart_cell_hint"]}
{"id": "C112", "title": "Ranks of a node are numbered without gaps and spread evenly over its devices", "statement": "For every placement of ranks on nodes: the ranks of a node have the intra ranks 0, 1, ... in order and know their number; exactly the lowest rank of each node has an inter communicator, there is one for each node, and they have the inter ranks 0, 1, ... in order and know their number. If no local rank is given by the caller or the environment, each of the n devices of a node is used by s / n of its s ranks, and the first s % n devices by one more. A local rank from the caller, or else from the first environment variable that is set, picks the device with its remainder. Negative local ranks in the environment are not rejected and index the devices out of bounds.", "quantifier": "all numbers of ranks, all placements of ranks on nodes, all numbers of devices and all values of the environment variables", "why_tests_cant": "Tests run on one node with one device; numbering and balance must hold for all placements and numbers of devices.", "anchors": ["include/neso_particles/communication/comm_pair.hpp: CommPair", "src/compute_target.cpp: get_local_mpi_rank, SYCLTarget"]}
{"id": "C113", "title": "CellInfoNPart is the number of particles of the iteration set in the cell", "statement": "In a loop over a particle group, or over any sub group however it was made, a kernel with read access to CellInfoNPart reads the number of particles of this group or sub group in the cell of its particle, which is positive and the same for all particles of the cell that are visited.", "quantifier": "all occupancies, all cells and all sub groups made by selections, scans, truncation, discarding, cells, copies and unions, nested to any depth", "why_tests_cant": "Tests compare counts for one group and one sub group; the counts must be those of the iteration set, not of the parent group, for all ways to make sub groups.", "anchors": ["include/neso_particles/loop/cell_info_npart.hpp: CellInfoNPart, create_loop_arg, create_kernel_arg", "include/neso_particles/loop/particle_loop_base.hpp: create_global_info", "include/neso_particles/particle_sub_group/particle_loop_sub_group.hpp: setup_subgroup_is"]}
