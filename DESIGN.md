# Formal model of NESO-Particles in Lean 4

## Layout

* `properties.jsonl` – the properties, in terms of the API.
* `lean/Verif/<Area>/Model*.lean` – the model. Each definition cites the file and lines of `/repo` it models and says where it simplifies.
* `lean/Verif/<Area>/Spec*.lean` – small specifications.
* `lean/Verif/<Area>/Lemmas*.lean` – helper lemmas.
* `lean/Verif/<Area>/Props*.lean` – the property theorems (named after the property, `C07_...`), with `example`s that show concrete non trivial instances of their hypotheses.
* `lean/Verif/Common` – kernels, schedules, atomic counters, memory.
* `lean/Verif/Audit.lean` – prints the axioms of every property theorem when it is built.
* `MANIFEST.json` – property -> theorems. `seeded/LOG.jsonl` – results of editing the model the way a bug would; `failed` lists the declarations that no longer check, and the property theorems that depend on one of them.

## Modelling conventions

* Undefined behaviour (out of bounds access, division by zero, failed `NESOASSERT`, `MPI_Abort`) is a distinct outcome: functions that may hit it return `Option` (`none`). Positive theorems state that the outcome is `some`.
* Device memory is a list (or a partial function, for the rows of a particle group). Kernels are lists of work items executed in an *arbitrary* order: theorems quantify over all permutations of the work items (`Sched`).
* Work items that use several atomic counters: each counter has its own arbitrary order of increments, or the work items are split into single atomic operations. This includes every real interleaving (and more), so a theorem for all such orders covers all schedules.
* What work items of one work group do between two barriers is executed in an arbitrary order.
* Fresh allocations, resized scratch buffers and buffers from resource stacks hold arbitrary values (`Fresh`, `Env`).
* MPI: the state of all ranks is one Lean value; collective calls are functions on it; arrival orders of `MPI_ANY_SOURCE` receives, orders of remote accumulates and the orders in which MPI reports graph neighbours are arbitrary.
* `REAL` arithmetic is exact: rational numbers, or real numbers where square roots occur. Where a conversion from a floating point number decides an index, the conversion is an arbitrary function if the property does not depend on it. Rounding is not modelled.
* `int`/`INT` are unbounded integers or naturals; overflow is not modelled unless said otherwise. C++ `/`, `%` on signed values are `Int.tdiv`, `Int.tmod`.
* Values of particle properties that the code only copies are opaque codes.

## Trusted base

* Lean's kernel, and the standard axioms `propext`, `Classical.choice`, `Quot.sound`. The axioms of each property theorem are listed at the end of this file; `lean/Verif/Audit.lean` prints them again. No other axioms, no `sorry`, no `native_decide`, no `bv_decide`.
* The correspondence between the C++ text and the Lean definitions, which is by reading (citations on every definition).
* Properties of the environment that are assumed: SYCL atomics are atomic; a kernel has finished when its event was waited on; group collectives (`reduce_over_group`, barriers) behave as SYCL says; MPI delivers messages unchanged; MPI collectives, distributed graphs and `MPI_Dims_create` behave as the MPI standard says; the C++ standard library containers behave as their model (`std::map`, `std::set`, `std::vector` as lists or functions).

## Not modelled

Profiling and VTK output except the parts in C99, C100, C104 and C109, the HDF5 library, the PETSc, Nektar++ style and FEM external interfaces except where listed below, floating point rounding, integer overflow, memory allocation failure, lifetimes of objects, SYCL queues and events other than as sequencing points, performance parameters other than where they influence which particles are visited.

Assumptions by area, in addition to the comments in the models:

* **Group.** A property is named by a number; REAL and INT properties have different numbers. Data kernels are split into one work item per (component, particle). Events of `set_nrow` are complete before the next call (calling `set_nrow` twice before `wait_set_nrow` is not modelled).
* **Loop.** Host and device copies of the counts are one list (C18 shows that they agree).
* **Containers.** One compute target, so maps keyed by compute target are options. The exchange of messages of the mesh hierarchy container is modelled by its result. The user's random number function is a sequence.
* **Mesh.** Exact arithmetic; the claim protocol is the one of C34; loops over dimensions which the mesh does not have are left out.
* **Sub.** A selector is modelled function by function; when it runs, each parent is brought up to date once. A property is removed and added again in one step. For C76 and C77 a particle dat is a numbered object with its counts, a device pointer is the number, REAL and INT names are different numbers, and a selection is its counts per cell.
* **Comm, Move.** A phase of non blocking messages is one step in which the messages of a rank arrive in any order and go to the first posted receive that accepts them. Phases of one function are separated by the collectives in it; `CommunicationEdgesCounter` is modelled call by call between its barriers. Packed particles are sequences of 8 byte words.
* **Pair, Dsmc.** The outcome of a pair loop is its sequence of kernel calls. Work groups share only the buffers named in the models and run in any order. Random numbers and their conversion to integers are arbitrary.
* **Algo.** `reduce_over_group` combines each work item's value once, in any order. The tree of the extractor is the one of C47.
* **Boundary.** Exact reals, a division by zero is `none`; `hybrid_move` in the initialisation by advection is any rearrangement of the particles that keeps their properties (C26-C30); for C63 face ids fit in an `int`, device trees are maps and the cached MPI arguments are recomputed.
* **Containers, arrays.** Kernels of a loop run when it is submitted. A stage buffer that is replaced keeps nothing; use after free is not modelled. Entries form a commutative monoid, so REAL sums are exact and do not depend on the order of the reduction.
* **Io.** A file is a list of steps, a step a list of named datasets; HDF5 calls take effect when they return; the collective calls of the ranks are in step. Reading a value that was never written or is of another type fails.
* **Hybrid.** Composition of the models of Mesh, Move and Group on all ranks; the collective calls are in step. The mapping kernels work on a copy of positions and MPI ranks which is written back. All ranks read one map of owners, `C72_owner_map` shows that the maps of the nodes are equal.
* **Points.** `hybrid_move` and `cell_move` give any rearrangement of the particles between ranks and cells that keeps their properties (C26-C30, C72). A buffer that is larger than needed behaves as one of the needed size.
* **Petsc.** A DMPlex is the table of its points (height, cone, orientations, coordinates of vertices) with points numbered from zero, as the PETSc getters return them; `DMPlexSymmetrize`, `DMPlexStratify` and coordinate sections are not modelled. Maps are lists sorted by key. A scalar is its bytes. In the mapper of two dimensional meshes coordinates are exact (only `C85_orientation` is about every arithmetic), the coordinates of a cell are what `DMPlexGetCellCoordinates` returns, and the overlay mesh is that of C44.

## Plan per property

* **C01 1D work decomposition is a balanced partition** – `get_decomp_1d` as a total function on Nat (n > 0 assumed, as the C++ asserts). Algebra: consecutive ranges, first/last, unique containing unit, size bounds.
* **C02 Inverse 1D decomposition finds the owning unit** – Inverse as a partial function (`none` = division by zero). Theorem: result is defined and its range contains w; uniqueness from C01.
* **C03 Blocked exclusive scan computes prefix sums** – Single group scan and the three phase blocked scan over arrays; block phases run in an arbitrary order (permutation of blocks). Refinement to prefix sums.
* **C04 Segmented scans compute per segment prefix sums and totals** – Segments as (offset,size) pairs over one memory, processed in arbitrary order; refinement to per segment prefix sums.
* **C05 Tiled matrix transpose is the transpose** – Tiles and work items as nested index ranges writing to a flat memory in any order; pointwise specification of the result. The degenerate shapes (a dimension <= 1) are a negative theorem.
* **C06 Integer rounding helpers meet their contracts** – Closed form functions on Nat; least/greatest element characterisation.
* **C07 A particle loop visits every particle exactly once** – `get_generic` function by function producing launch descriptions; the set of visited (cell, layer) pairs is computed from the launch and compared (count = 1 / count = 0) with the occupancy.
* **C08 A strided (reduction) particle loop visits every particle exactly once** – Same with stride; interlaced layer formula and per item bound.
* **C09 Loop indices number particles densely and uniquely** – Exclusive sums of counts; bijection with [0,total).
* **C10 Loop submit/wait protocol** – State machine with rejected transitions; invariant by induction on histories.
* **C11 Removing particles keeps exactly the other particles** – Particle group storage (per property, per cell rows, counts), dense compressor function by function, copy kernel with arbitrary order of work items. Spec: permutation of surviving particles.
* **C12 Removal is correct for every schedule of the atomics (sparse compressor)** – Sparse compressor with one arbitrary order per atomic counter; same spec.
* **C13 Adding a ParticleSet appends exactly the new particles** – Host loop that assigns layers and append of every property; spec on particle views.
* **C14 Adding from another group or sub group copies the right values** – Copy kernels over source views; spec on particle views.
* **C15 Cell move conserves particles and puts them in the named cell** – CellMove with arbitrary order of atomics followed by the dense compressor (C11).
* **C16 ParticleRemover removes exactly the matching particles** – Count/collect kernels with arbitrary order, then C11.
* **C17 Resizing a CellDat preserves existing rows** – CellDat cell as (nrow, allocated rows); induction over operation histories against an abstract row map.
* **C18 Particle group bookkeeping invariant over all histories** – Invariant over histories of the operations modelled for C11, C13, C15 plus add/remove of properties.
* **C19 Product matrix entries do not alias** – Offsets and flat index; injectivity and bounds; write/read law.
* **C20 Products are added as described** – Kernels of add_particles_local(ProductMatrix); negative theorem for the column lookup; partial positive theorem.
* **C21 A sub group contains exactly the particles that satisfy its condition** – loop_0/loop_1 with arbitrary order of the atomics; spec: the map lists exactly the satisfying layers.
* **C22 Scan based selection is deterministic and order preserving** – Mask, scan, scatter; spec: filtered list in order.
* **C23 Derived selections: truncate, discard, union, cell restriction, copy** – Selections as per cell lists of layers; each selector's kernel; list algebra.
* **C24 Sub groups are refreshed after every change** – Version counters for properties and group, cached selection; invariant over histories: a used selection equals the recomputed one.
* **C25 Partition creates disjoint covering sub groups** – Partition kernels with arbitrary order; per part spec.
* **C26 Departing particle identification assigns unique slots** – identify kernel with one arbitrary order per counter.
* **C27 Packing then unpacking reproduces the particles** – Byte layout with an abstract per value byte codec (fixed width); pack to byte rows, unpack.
* **C28 Global move conserves particles** – All ranks in one state: identify, pack, exchange with arbitrary arrival order, remove, unpack; spec: multiset of particles over all ranks.
* **C29 Edge counting discovers exactly the ranks that will send** – RMA counter and ANY_SOURCE receives with arbitrary order.
* **C30 Local move conserves particles and rejects unreachable ranks** – As C28 with neighbour lists.
* **C31 Neighbour all to all delivers edge k to edge k** – Tags per peer; matching of k-th edges.
* **C32 Tree reduction of sets yields the union** – Rounds of the tree as state transitions on all ranks.
* **C33 Mesh hierarchy indexing round trips** – Mixed radix arithmetic.
* **C34 Cell claiming elects one owner deterministically** – MAX accumulates in any order, two phases; spec: max rank among max weight claimants.
* **C35 Neighbour cells of the mesh hierarchy** – Index arithmetic with truncated remainder; negative theorem for large offsets; partial positive theorem.
* **C36 Global mapping names the hierarchy cell that contains the particle** – Rational positions; truncation to int; containing cell.
* **C37 Cartesian cell binning puts particles in the containing cell** – Rational positions; clamp.
* **C38 Periodic wrapping maps into the domain and preserves the position modulo the extent** – Rational positions; fmod.
* **C39 Cartesian mesh cells are owned by exactly one rank** – Per dimension decomposition (C01/C02) lifted to tuples.
* **C40 Cartesian face identifiers are a bijection** – Face numbering; mixed radix with face blocks.
* **C41 Local mapper sends particles to the owning rank** – Per dimension lookup tables with halo; spec: owning rank from C39.
* **C42 Rank grid choice is valid** – Products of lists; decision logic of the fallback chain with an arbitrary MPI_Dims_create that satisfies its MPI specification.
* **C43 Bounding box claims cover exactly the overlapped cells** – Rational boxes; overlap; list of cells.
* **C44 Overlay mesh cells** – Rational boxes; index vectors; negative theorem for ndim = 3 (index vector of length 2).
* **C45 Serialisation round trip** – Byte lists with a length prefix codec.
* **C46 Mesh hierarchy container gathers all contributions of a cell** – All ranks; owner map; gather as communication of byte buffers using C45.
* **C47 Blocked binary tree behaves as a map** – Binary tree with width-W leaves; refinement to last-write map.
* **C48 Lookup table behaves as a partial map** – Array of options.
* **C49 ND indexing is a row major bijection** – Mixed radix.
* **C50 Resource stack never hands out one resource twice** – State machine over resource ids.
* **C51 Random samples are not reused** – Generator as an infinite supply of distinct sample ids; history of loops; arbitrary order of reads.
* **C52 Per particle random numbers are distinct buffer entries** – Index injectivity.
* **C53 Buffer reallocation keeps contents and capacity** – Buffer as list with size; negative theorem for shrinking realloc.
* **C54 Host pair list waves are conflict free** – push_back as state transition; induction.
* **C55 NTC sampler produces valid pairs and waves for every schedule** – CPU greedy waves; GPU atomic flags with arbitrary orders.
* **C56 Sampling without replacement never reuses a particle** – Swap with last draws; no duplicates.
* **C57 Collision cell partition lists each particle under its cell and species** – Atomic layer kernel, scan, scatter.
* **C58 Pair loops execute every pair exactly once in wave order** – Loop nest as list of (wave, pair) events.
* **C59 Unseen value extractor reports each value once** – Set of seen values; induction.
* **C60 Cellwise reductions combine exactly the particles of the cell** – Strided partial folds over a commutative monoid.
* **C61 Specular reflection preserves speed and reverses the normal velocity** – Vectors over a commutative ring/ordered field.
* **C62 Boundary truncation leaves the particle on its path before the wall** – Ordered field with the norm given by its defining equation.
* **C63 Boundary face exchange delivers to the owner** – All ranks; index lists; composition of pack, exchange and unpack.
* **C64 Parallel advection initialisation ends at the requested positions** – Recurrence over a field.
* **C65** – the index conversions of the device mapper as integer functions per dimension; round trips by arithmetic. The untruncated index is off by one at exact multiples below the origin (negative theorem), so partial.
* **C66** – the loop over the halo cells of a rank and the owner lookup; the list of ranks equals the ranks with a cell within the stencil, counted periodically.
* **C67** – tree reduction in local memory with barriers: what work items do between barriers runs in any order; invariant per level, then the atomic updates of the cell in any order.
* **C68** – the two intersection functions and the kernels of both dimensions over rational numbers; the specification `LeavesAt` speaks of the path, the plane of the side and the domain only. Proof: the dimension whose plane is reached first passes the bounds test; convexity gives the part before. Negative theorems: a start on the upper wall, a path along a wall.
* **C69** – model the selector with a kernel that may fail, the buffers filled by the intersection loop, the check, the group map, the sub group of each group and the loop that collects point, normal and metadata; prove by the invariants of the loops with C21, C63's loops over rows, C68 and the face numbering of C40 that the result of each group is as specified; the side in two groups is a recorded violation
* **C70** – `Boundary/ModelSurface.lean` models the function object, the staging buffers, the kernels and the exchanges on all ranks on top of the exchange of C63. `Boundary/SpecSurface.lean` defines the histories, the value of a face and the totals. The invariant over histories gives completion, the sums and the evaluated values.
* **C71** – Compose the models of post_integration on a rank (C69), the extraction of unseen values (C60), the owners of faces (C44) and the exchange of faces (C63) into the collective call, with one tree and one exchange for each group. The invariant of the history: the tree of a group on a rank holds exactly the faces announced by the rank, which are those found in the metadata returned so far. C70 then gives the values of the functions.
* **C72** – compose the models of the local mapper (C38), the global map (C36), global and local move (C26-C28, C30), the cell binning (C37) and cell move (C15) into `hybridMove` and `cellMoveAll` on all ranks; prove by invariants per stage that the ranks written name the owner of the containing cell, that the two moves take each particle there, and that the values are conserved.
* **C73** – Model the stage buffer protocol per rank on top of the iteration set model (C07); prove by induction over the additions and over histories; prove what happens when the stage buffer is replaced before it is reduced.
* **C74** – Model ParticleSet, the staging kernels and copies and the member particle_spec; prove the layout of the staging buffer by an invariant over the work items, the specification by induction over histories of calls, and compose with C13, C11 and C21.
* **C75** – Model the linearising loop, the scan of counts, hyperslab writes by all ranks in any order and the reads; prove the columns by an invariant over work items, the datasets by disjoint slabs, the names by a parsing argument, the reads with C01 and C74, histories by induction.
* **C76** – Model dats as numbered objects, the cache and the operations; prove by an invariant over histories that a cached list is what the names mean; state what happens when a name is used for a second dat.
* **C77** – Same model as C76 with the number of rows per cell of each dat; invariant over histories.
* **C78** – Model of the phases of one work item as a list of kernel calls; counting over all work items by induction over the halved diagonal blocks; comparison of two work items phase by phase.
* **C79** – Model the host copy, the validation kernel with its assertions and counters, the occupancy kernel with local counters in any order, the mean and the reduction. Prove the equivalence of acceptance with an independent definition of a race free list with tight wave counts, from the assertions to the list and back. Strengthen the invariants of the sampler so that its lists satisfy the definition.
* **C80** – Model the names, numbers of components, row counts, specification and version entries of groups, the constructor, add, remove and clear with their assertions, and get and restore on top of the resource stack of C50. Prove an invariant of source, stack and temporary groups by induction over the history.
* **C81** – Model all calls on all ranks: the stack of points, the four particle loops in any order with atomic counters, the grouping by rank, the exchange of counts and indices (model of C29), the exchange of values at offsets, and the loops of get, set and interpolate. Prove that the write index is a bijection onto the message slots of the adding ranks, that each slot arrives with the index of its point, and that each point is written once. Prove that get fails with several components if a point is remote, and that set leaves remote points alone.
* **C82** – Model the mapper with its device buffer and histories of all calls. Prove get, copy_to_external and the failure for missing indices by induction over histories. The code copies the device buffer over the external buffer in copy_from_external: prove that its result does not depend on the external buffer and what it does instead.
* **C83** – Model the checks and the device loops on flat memory, with the CellDatConst of one loop in a shared store so that the result may be an argument. Use the loop model of C07 and the sub groups of C23. Prove entries by the injectivity of the column major index and invariants over any order.
* **C84** – A DMPlex is the table of its points; ordered maps are sorted lists. Specify a distributed mesh by functions of global ids and each rank's part by a renaming. Prove the bytes round trip, the traversal of the closure, the numbering (position in the list sorted by depth and id) and the loops that build the new mesh by invariants over the folds.
* **C85** – Specify a cell by the convex hull of its corners. Prove for triangles and convex quadrilaterals that the parity of crossings characterises the hull by a case analysis on the heights of the corners. The candidates of an overlay cell are an invariant of the loop over cells: every cell whose bounding box meets the overlay cell is a candidate, in increasing order; with C44 the overlay cell of a point meets the box of every cell that contains the point.
* **C86** – Real numbers, a division by zero gives no number. The determinant of the derivative at a point of the reference square is a convex combination of the four corner areas, hence not zero; the bilinear map is injective by evaluating it at the midpoint. The quadratic has the coordinate as a simple root, which is one of the two computed roots; any pair in the square solves both equations. Torus by the properties of the argument of a complex number.
* **C87** – All ranks together; a collective call is a function on the list of ranks and the neighbour orders are parameters. The state after construction and after each transfer has a closed form in terms of the entries that rank s sends to rank q; with it the packed buffers, displacements and received blocks are concatenations, and each result is a sum over ranks and entries. The sums are reordered into the specification.
* **C88** – The constructor, find_cells, collect_cells, the search and the selection are modelled one by one over rationals. The intersection test is shown to solve the two by two system. Invariants: the static data hold exactly the facets of all ranks and the cells their padded boxes overlap; the trees hold exactly what was collected; the cells of a step are collected before the search. A crossing below the upper ends lies in a cell that both discretisations name, so the edge is tested there; the search keeps the closest one.
* **C89** – The object is a table, the inverse volumes and a flag. Invariant over all calls: the sizes of the table and the inverse volumes. A loop that adds to its cell gives the sum over the particles of the cell in any order; a loop that writes its particle gives each particle the result of the kernel once.
* **C90** – The coordinates are those of C86. Invariant over all calls: sizes, the stored weights, one point for each number, and that the weights of the numbered points times the stored matrix is one. The LU solver is a parameter assumed to return a solution, and to return one if the matrix has an inverse. The left inverse gives back the values at the vertices; weights that sum to one give conservation, and their combination of the vertices gives exactness for affine functions.
* **C91** – Compose the models of the claims by bounding boxes (C43), of ownership (C34), of neighbouring cells (C35), of the container (C46) and of the packed cells (C84) as the constructor does, for all ranks; prove what the halo contains, and with it the statement about positions by a geometric argument for each dimension.
* **C92** – Model the collective call as a function of the arguments and the parts of the mesh of all ranks: the gathered vectors with counts and displacements, the vertex map, std::set_intersection as the merge of two ranges, the flags and their sum. Prove that the gathered vectors are the concatenations, that the loop inserts exactly the joined points, and that the last check passes if and only if every request is met somewhere.
* **C93** – Model the loops over particles with any order of the items, the vectors of positions, the search in the local mesh with the list of points not found, the second search and the loop that writes cell and rank, with point location as a function that is a parameter. Invariants of each loop, and that the linear indices of the loop are a bijection.
* **C94** – Model the functions with the generator as a sequence of draws and cell_contains_point, bounding boxes and volumes as parameters. The specification is rejection sampling as an inductive relation between states of the generator; prove that the loops compute it, with invariants for the particles written so far, and combine with C85 for two dimensional cells.
* **C95** – Model a call as a state machine whose steps are the exchanges, and an execution as any sequence of steps of the calls. Invariant over executions: the calls that have returned, in the order of their last exchange, give the same results as if made without interruption; a call that goes on has seen the memory change since its last exchange. Bound the exchanges by counting the calls that returned meanwhile.
* **C96** – Transcribe the formulas; prove that the number divided by is the determinant as defined in Mathlib and that the products with the matrix are the identity matrix by polynomial identities.
* **C97** – Model the maps of properties, the memory of each property and the tables with reused buffers; prove an invariant over histories which says that a map marked as valid describes the present properties.
* **C98** – Model the loop over the cells and the datasets with the slabs of the ranks; write a reader from the description of the format; prove that reading gives the cells back by index arithmetic on concatenations.
* **C99** – Model the tables of corners and the loops over them on top of the models of the decomposition (C39), the faces (C40) and VTKHDF files (C98); specify corners, sides and the order of points without the tables; prove by cases over the six sides for symbolic coordinates.
* **C100** – Model the writer with its maps of vertices; write a reader for the file and a definition of the edges of a cell; prove by an invariant on the numbering of vertices and by cases over the dimension for symbolic coordinates.
* **C101** – Model the choice of the local size, the local accessors and `at` on top of the work groups of C07; a memory per launch, work group and argument; runs are arbitrary interleavings of accesses of the calls. Prove that places are distinct for distinct particles and elements, with an invariant on what each particle wrote last.
* **C102** – Model the two arrays with one row per global point that each rank fills for the points it owns, the reductions with the maximum, and the comparison of each point of the halo. Prove that rows of different points do not meet, that the reduction gathers the rows of all owners, and that each check holds exactly if the copy agrees with the owner. A witness shows that the value is that of one rank.
* **C103** – Model the buffer, the linear index of C49 and the handling of the argument pack. Invariant: the buffer is the list of the values of a function at the index tuples in lexicographic order; each use changes the function as the specification says; induction over histories.
* **C104** – Model the loops over the coordinates that PETSc returns; loop invariants. The files follow from C98. For the points at vertices: the number of points in a cell is counted from the multiset of added points, so the layers of a cell are the indices of its vertices.
* **C105** – Model the loops with the wraparound of 64 bit integers, and the device as an arbitrary function of start and elements. Loop invariants for the validation; commutativity of the operations under permutations for working devices; an equivalence for acceptance; witnesses for what the checks miss.
* **C106** – Model the map as keys with stacks and counters of managed objects. Invariant: the resources held, freed and in stacks are a permutation of all that were constructed, and each counter is the number of held resources of the key plus the size of its stack. Induction over histories.
* **C107** – Model the flag as a 32 bit integer that wraps around. Invariant: the flag is the wrapped number of failures since the last reset; induction over histories, with an equivalence for when a history throws.
* **C108** – Model tuples as chains of pairs, with the internal state and the number of draws of each generator. Induction over tuples for each hook; invariant over histories: the generators that are not idle are those of the running loops, each once.
* **C109** – Model each call with the time of the clock as argument. Induction over histories with the calls made while enabled as specification; an invariant that names the call that started each region; induction over lines for the file.
* **C110** – Model the loops over cells, particles and dimensions with the samples as a sequence. Induction over dimensions, particles and cells gives the exact sample of each coordinate; the theorems on owned cells and CartesianCellBin give the name of the cell.
* **C111** – Model shared pointers as numbers of objects. Invariant by induction over histories against a specification that reads the history backwards; the setup and the hint by computation.
* **C112** – Model MPI_Comm_split by its standard semantics over a function from ranks to nodes. Induction over the number of ranks shows that groups are numbered in order; counting of remainders gives the balance.
* **C113** – Model the counts passed to the kernel for both types of loops; the invariant of all sub groups that can be made (C21, C23) gives the number.

## Findings: places where the code does not meet the English property

Where the surrounding code is modelled there is a proved negative statement (a concrete witness), named here, next to the positive theorem with the extra hypothesis. The others were noticed while reading and lie outside the model.

1. `matrix_transpose` returns without writing when a dimension is <= 1 (`C05_degenerate_not_transposed`).
2. `get_neighbour_mh_cells` uses `(x + n) % n`, negative for offsets larger than `n + x` (`C35_large_offset_fails`, `C35_large_offset_wrong_cell`).
3. `add_particles_local(ProductMatrix)` finds the cell id column with the property index instead of the component offset; wrong if an earlier INT property has more than one component (`C20_cell_from_wrong_column`).
4. Descendant products with cell ids in the specification: the parent of products that were never given one is dereferenced (`C20_unset_parent_fails`).
5. The dense compressor removes every particle with a negative cell id, also if not listed (C11: hypothesis that cell ids are not negative).
6. `CellDat::set_value` does not fire the write callback, so cached sub groups may stay stale (`C24_stale_set_value`).
7. `OverlayCartesianMesh::get_intersecting_cells` uses an index vector of length 2 and throws in 3D (`C44_three_dimensions_fail`).
8. `BufferBase::realloc` that shrinks copies the old size into the smaller allocation (`C53_realloc_shrink_overflows`); growing a buffer of size 0 asserts.
9. `reduce_dat_components_cellwise` accepts more particle components than matrix entries and then adds the surplus components into entry 0 (`C60_surplus_components`).
10. Disjoint union does not check disjointness; duplicates otherwise (`C23_union_overlap`).
11. The mesh hierarchy device mapper and the global map have no lower bound check (`C36_below_origin_not_rejected`).
12. The pair samplers do not check requested counts / overlapping groups (`C56_requests_not_checked`, `C55_overlapping_self_pair`).
13. `CellwisePairListSimple`: `set` followed by `push_back` without `clear` can assert or lose waves (`C58_push_after_set_*`).
14. `set_recv` narrows the received values to `int`.
15. The rank grid fallback chain can reject a communicator size although a valid grid exists (`C42_search_incomplete`).
16. A new `CellDat` reports -1 as its minimal number of rows (`C17_fresh_nrow_min`).
17. `add_particle_dat` with a positive occupancy hint below an existing cell count loses values (`C18_small_hint_loses_values`).
18. `get_decomp_1d_inverse` divides by zero for fewer items than units (C02).
19. `map_to_cart_tuple_no_trunc` is one too small below the origin on a cell boundary (`C65_no_trunc_off_by_one`).
20. Selectors for truncation, discarding and union read index -1 on a rank without cells (`C23_no_cells`).
21. A pointer kept from `device_ptr()` is no longer noticed as a writer after a later write through the API (`C24_stale_pointer`); the child of a static parent stays stale (`C24_stale_static_parent`).
22. Mesh hierarchy container: cell indices are narrowed to `int` (`C46_large_cells_mixed`).
23. The block RNG with zero components reports invalid samples (C51); `reallocated` is uninitialised when no samples are required.
24. An empty simple pair list has pair count -1 (`C58_empty_list_shifts`); block pair loops check the block size of the last list only (`C58_block_sizes_not_checked`); pair loops use the groups of the first list only.
25. `PairSamplerNTC` with a sub group that is the whole group reads through a null pointer (`C55_whole_group_fails`).
26. The collision cell partition does not check collision cell labels (`C57_labels_not_checked`) and fails without species.
27. `truncate_trajectory` with reset distance 0 at the intersection point divides 0 by 0 (`C62_zero_reset_fails`).
28. `reverse_exchange_from_device` passes a host pointer to a device kernel when MPI is not device aware (`C63_backward_host_memory`); `get_total_num_exported_geoms` dereferences a null pointer before the first extension.
29. `CartesianHMesh` rejects one dimension although the dimension check admits it (C40).
30. Not modelled: `ParticleLoopIterationSet::get` calls `get_min_power_of_two(0)`; `nbin = 0` skips peel loops; the iteration set size used for profiling overcounts; `add_particles_local(ParticleSet)` asserts bad cells in the middle of the update; static partition sub groups share buffers that are overwritten when linked sub groups update; `SubGroupParticleMap::npart_total` is not initialised without cells; removing and adding a property again resets its version to 1; the scan selector may recreate its parent between its two loops; `ParticleUnpacker::unpack` reads `h_npart_cell[0]` on a rank without cells; the host pair list sorts each pair, which swaps pairs of different groups; `parallel_advection` relative error is vacuous for coordinates exactly 0; `get_npart_cell` and `reduce_dat_component` do not check all indices; `get_identity` of min/max over floats is the largest finite number; copying parent properties from another group does not compare the numbers of components; `max_pair_count` under-reports; `ParticleSetDevice::get` with a repeated symbol races.
31. A particle whose previous position is on an upper wall of a Cartesian mesh and which leaves through a wall of another dimension is reported at its start on the upper wall (`C68_start_on_wall`): the tests of the walls accept a path fraction of zero. `C68_exit` therefore asks for previous positions strictly inside of the domain.
32. A particle that moves exactly along a wall counts as leaving but no intersection is found, so `post_integration` throws (`C68_along_wall`).
33. A side of the domain listed in two boundary groups is given to the group with the larger label only, without an error (`C69_shared_side`).
34. `function_project_initialise` zeroes the entries of the faces known at that time, while `function_project_contribute` assumes that all entries up to the size of the buffer are zero: if a face is hit for the first time between them, old staging memory is added to the function (`C70_stale`).
35. `function_project_finalise` reads beyond the staging buffer if faces were added since the last contribution (`C70_final_short`).
36. `CartesianHMeshFunction::fill` and `set_dofs` are not documented as collective; if `fill` is called on one rank only, the next `function_evaluate` waits forever for the other ranks (`C70_fill_one_rank`).
37. The projection scales by the inverse cell width in three dimensions too, where the area of a face is the square of the width: the integral of the function over the faces is not the sum of the values of the particles unless the cells have width one, as in the test (`C70_integral`).
38. The constructor of `CartesianTrajectoryIntersection` accepts a group that lists a side twice. Every face on that side then has two degrees of freedom on its owner; a projection writes one of them and leaves the other at zero (`C71_repeated_side`).
39. `GlobalArray` takes a new stage buffer each time a loop with add access to it is submitted. If a loop is submitted for several ranges of cells before `wait`, which `submit` accepts, everything added by all but the last submission is lost (`C73_only_last_submission`, `C73_contributions_lost`); the old buffer is released while its kernel may be running.
40. If two loops with add access to the same `GlobalArray` are submitted before either `wait`, the first `wait` adds what the second loop added and the second `wait` fails an assertion (`C73_two_loops_in_flight`).
41. `ParticleSet::at` checks the position in the vector of values but not the particle index: particle index `npart` of a component reads, and through the reference writes, particle 0 of the next component (`C74_at_unchecked`).
42. A step that `H5Part::write` makes when no rank has a particle has no dataset `x`; `H5Part::read` opens `x` to find the number of particles and fails on such a step (`C75_empty_step_unreadable`).
43. `H5Part` names the dataset of a component after the property alone: a REAL and an INT property with the same name, which a particle group may have, cannot be written to one file, nor can a property that is listed twice (`C75_same_name_rejected`).
44. A property that is removed from a particle group and added again: a loop given a `SymVector` with a list of names that was used before accesses the removed dat, whose memory was freed, because neither `remove_particle_dat` nor `add_particle_dat` resets the cached pointers, of the group or of its sub groups (`C76_stale_added_again`, `C76_stale_added_again_sub`).
45. `remove_ephemeral_dat` does not reset the cached pointers either: if the ephemeral dat is added again, a list of names that was used before accesses the removed one (`C76_stale_ephemeral`).
46. An ephemeral dat with the name of a property: lists of names used before still access the property, other lists access the ephemeral dat (`C76_stale_shadowed`).
47. Loops over a sub group of the whole particle group do not bring the sub group up to date. After particles were added they access ephemeral dats that have rows for the old particles only (`C77_whole_group_stale`).
48. Removing a property and adding it again sets its version to 1. A sub group which depends on it and saw the version that the property then reaches again is not brought up to date (`C24_stale_added_again`).
49. `CellwiseAllToAll` needs a work group size that is a power of two, which it does not check. With three work items and six items the pair 0, 2 is missed and the pair 2, 3 is visited twice (`C78_size_three`).
50. A temporary particle group is matched to its source by names and numbers of components, not by which property holds the positions. If the source gets a second property for positions with `add_particle_dat(dat)`, a temporary group that existed before keeps the old one as its positions; if the source then removes the old property, `ParticleGroupTemporary::get` fails (`C80_second_positions`). `restore` does not check that the temporary group came from the given source.
51. `QuadraturePointMapper::get` with two or more components fails on an assertion whenever some rank holds a point that another rank added: the receive buffer is resized to the number of points, not to the number of values (`C81_get_fails`). With one component, or if each rank holds its own points, it is correct (`C81_get_partial`).
52. `QuadraturePointMapper::set` only sets the points on the rank that added them. A `get` after it returns the old value for every other point (`C81_set`, `C81_set_get_partial`).
53. `DOFMapperDG::copy_from_external` has the arguments of its memcpy in the wrong order: it overwrites the external buffer with the device buffer of the mapper instead of reading it, and stores the values of the last `copy_to_external`, or new memory, in the degrees of freedom (`C82_copy_from_ignores`, `C82_copy_from_wrong`).
54. `get_npart_cell` has no lower bound check: row -1 writes the counts to the last row of the column before (`C83_negative_row`), and with column 0 into the matrix of the cell before.
55. `CellSTDRepresentation::deserialise` appends to the coordinates of the vertices: unpacking into an object that holds a cell already doubles them (`C84_used_object`). The library itself only unpacks into new objects.
56. `DMPlexHelper::get_local_point_from_global_point` checks the unsigned id but looks up the id as it was given: for the signed id of a point that another rank owns it passes the check and returns point 0, and inserts that answer into the map (`C84_point_lookup_signed`).
57. `create_halos` never inserts into its set of cells that were collected already: a cell found in several mesh hierarchy cells is unpacked several times. The resulting mesh is the same (`C84_halo` allows repetitions).
58. `DMPlex2DMapper` and `DMPlexHelper::cell_contains_point` do not find the points of a horizontal edge at the top of a cell, other than corners, nor a corner which is both first from the left and at the top. Inside the mesh the cell above finds them; on the upper boundary of a mesh the particle keeps its old cell and rank (`C85_top_missed`, `C85_top_edge_lost`).
59. The constructor of `DMPlex2DMapper` expands the bounding box which `DMPlexHelper::get_bounding_box` has cached for the local mesh: afterwards the local mesh reports a box which includes the halo cells (`C85_box_changed`).
60. `quad_cartesian_to_collapsed` divides by one component of the vector across the cell. It picks the component which is larger at the two sides, but that component can change its sign between the sides: on the line where it is zero the right solution is replaced by the value 1000. The centre of the trapezoid (0,0) (0,-4) (1/2,-3) (1/2,-1) gets (0, 1000), and `quad_cartesian_to_barycentric` the weights of the middle of a side (`C86_quad_lost`).
61. `quad_cartesian_to_collapsed` replaces a negative discriminant by zero. A point outside of a strictly convex cell which has no reference coordinates can get coordinates inside of the reference square (`C86_outside_accepted`).
62. `DMPlexMeshCouplerDG0` turns global cell numbers into local points (`get_local_point_from_global_point`) and uses them as cell indices in the vectors, whose sizes are checked against the number of owned cells. On a rank where a copy of another rank's cell is numbered before an owned cell, the transfers read and write outside of the vectors, or in the wrong cell (`C87_point_index`).
63. `BoundaryInteraction2D` clamps the cells of a step to the grid only from one side on each end: a step whose positions in some dimension are all on or above the upper end of the domain gets an empty range of cells. A particle that starts on the upper boundary and moves out is not reported, one on the lower boundary is (`C88_top_missed`). Steps parallel to an edge are never reported, even along it.
64. `BoundaryInteraction2D` accepts position dats with more components than the mesh has dimensions, but takes the number of components as the dimension. With three components the loop over the third dimension is empty and nothing is ever reported (`C88_three_components`); with a two component earlier position, component 2 is read beyond its end.
65. `BoundaryNormalMapper::get` is documented to return false if there is no normal for the index, but follows the pointer of a tree node that need not exist (`C88_normal_get_null`). In `find_cells` the width of the box of a cell without particles overflows an `int`.
66. `DMPlexProjectEvaluateDG::evaluate` is documented to use the existing degrees of freedom, but when asked for more components than the function has it allocates a new table: the function is silently replaced by zero (`C89_lost`). With a mapper, a cell without a point with number zero gives what the table held before; `check_setup` is never called.
67. `DMPlexProjectEvaluateBarycentric::get_vtk_data` multiplies the table by the number of vertices over the volume, which is right after `project` and wrong after `evaluate`, which leaves the values at the vertices themselves in the same table (`C90_output_evaluate`).
68. If the extent of an unstructured mesh is a little more than a whole number of coarse cells, the last cells of the mesh hierarchy are covered to less than a millionth, nobody claims them, and particles in this part of the mesh have no owning rank (`C91_unowned`).
69. `label_dmplex_edges` sums a vector of `int` flags over the ranks as `PetscInt`s: with 64-bit `PetscInt`s
    every call with a request reads past the end of the vector (`C92_wide`). It also relies on supports in
    ascending order, which PETSc does not promise (`C92_order_needed`).
70. `DMPlexHostMapper` writes the PETSc point of a cell as its cell number. For a mesh distributed with an
    overlap (an argument of `generic_distribute`) cells of other ranks are not numbered, so particles get a
    cell that does not exist or the wrong one, and those in cells of other ranks are kept (`C93_overlap`).
71. `uniform_within_dmplex_cell` discards a position that is accepted with the last allowed attempt and reports
    that none was found; with `attempt_max = 1` nothing can be sampled (`C94_last_attempt`).
72. `VTKHDF::write` does not check that all cells have the same quantities. If one cell of a rank lacks a quantity, the values of the following cells move up by one cell and the last value is never written (`C98_missing_quantity`). It also relies on `MPI_Exscan` leaving the buffer of rank 0 unchanged, which the MPI standard does not promise.
73. `CartesianHMesh::get_vtk_cell_data` treats every mesh that is not two dimensional as three dimensional: in one dimension the cells are hexahedra with eight points of which two are given, and writing them fails (`C99_one_dimension`).
74. If the memory of one particle does not fit into the local memory, `get_num_local_work_items`
    (compute_target.cpp:393) converts `log2(0)`, minus infinity, to an unsigned integer, which is
    undefined. The assertions that should report the problem come after it; in the model this is a
    failure (`C101_refused`).
75. `DMPlexInterface::validate_halos` is collective but returns the verdict of the calling rank: `valid` is not reduced, so a rank with a right halo returns true although the halo of another rank is wrong (`C102_rank_local`). It also reduces over `MPI_COMM_WORLD` instead of the communicator of the mesh: on a mesh that lives on only some of the ranks the reductions wait for ranks that never call it (by reading; the model has all ranks of the world in the mesh).
76. `fetch_add` of an `NDLocalArray` does not check the number of its arguments: `fetch_add(i, j)` on a two dimensional array, with the value forgotten, compiles and adds `j`; arguments between the indices and the value are ignored (`C103_unchecked_arguments`).
77. `make_quadrature_point_mapper_vertex` adds its points at the mean of the vertices of each cell and takes the layer of a point in its cell as the index of the vertex. The mean of the vertices of a cell that is not convex can be in another cell; then that cell has more points than vertices and the loop reads past the end of its table (`C104_mapper_concave`).
78. `CheckAdd<int>::test` and `CheckAdd<INT>::test` compute the relative error with the division of integers, so any sum that is wrong by less than its absolute value is accepted: a device that loses 15 of 32 integer additions passes `check_atomics_sanity` (`C105_integer_sums_blind`).
79. `validate_range_local` computes the size of the work group with wraparound and skips dimensions for which the device reports no limit (`C105_group_wraps`), and accepts a local size of zero, after which `validate_nd_range` divides by zero (`C105_zero_local`).
80. `setup_nvidia` subtracts 1024 from an unsigned size and then asserts that the result is positive, which holds after wraparound for devices with less than 1024 bytes (`C105_local_memory_wraps`); `get_env_size_t` ignores numbers of `2^31` or more and turns negative numbers into sizes of more than `2^63` (`C105_env`).
81. `restore_resource` does not check that the resource came from the stack of the key: with another key of the same type it is accepted, the resource is then given to users of that key, and `free` fails although every resource was restored (`C106_wrong_key`). By reading only: `create_resource_stack` writes `std::forward<ARGS...>(args)...`, which compiles for exactly one argument.
82. The error flag of kernels is a 32 bit `int` that is incremented for every failed assertion: if the number of failures since the last reset is a multiple of `2 ^ 32`, `check_and_throw` does not throw (`C107_wraps`).
83. `ProfileMap::end_region` calls `value()` on the region if profiling is enabled at the end, but `start_region` returns nothing if it was disabled at the start: enabling profiling in between, for example between `submit` and `wait` of a pair loop over block pair lists, makes the end throw (`C109_enable_inside`).
84. `ProfileMap::reset` clears entries and regions but not events, and moves the reference time: old events are reported with negative times (`C109_reset_keeps_events`).
85. `write_events_json` does not escape keys: names of loops with quotes give files that are not valid or mean something else (`C109_json_quotes`).
86. `uniform_within_cartesian_cells` takes its generator by value (`src/utility.cpp:19-23`, by reading): the generator of the caller is not advanced, so two calls with the same generator give the same positions.
87. Negative numbers in environment variables for sizes are converted to `std::size_t` without a check: `NESO_PARTICLES_LOOP_LOCAL_SIZE=-1` gives work groups of `2^64 - 1` items (`C111_negative`).
88. `SYCLTarget` makes its store of parameters and its device limits only in the branch for `gpu_device == 0` (`src/compute_target.cpp:126-171`): a target for which a GPU or a CPU was asked for has a null pointer that all loops dereference (`C111_store`).
89. A negative local rank in the environment indexes the vector of devices out of bounds (`C112_negative`). The members `rank_inter` and `size_inter` of `CommPair` are not initialised on ranks that do not lead a node, and are printed by `print_info_inner` (by reading).

## Modelled code

The lines cited by the definitions of each area (collected from their comments).

**Algo**

* `include/neso_particles/algorithms/cellwise_methods.hpp`: 18-57, 121, 137-141, 151-160, 190-287
* `include/neso_particles/algorithms/particle_data_movement.hpp`: 20-49, 69-98, 118-151
* `include/neso_particles/algorithms/reduce_dat_cellwise.hpp`: 49-69, 109-138, 167-189, 228-258, 282-309, 349-402
* `include/neso_particles/algorithms/unseen_value_extractor.hpp`: 51-145
* `include/neso_particles/containers/cell_dat_const.hpp`: 583-666
* `include/neso_particles/device_functions.hpp`: 73-78, 86-93, 375-454, 635-642
* `src/algorithms/unseen_value_extractor.cpp`: 5-11

**Basics**

* `include/neso_particles/algorithms/common.hpp`: 18-525
* `include/neso_particles/device_atomic_sanity_check.hpp`: 16-102
* `include/neso_particles/device_limits.hpp`: 38-185
* `include/neso_particles/error_propagate.hpp`: 12-121
* `include/neso_particles/parameters.hpp`: 15-69
* `include/neso_particles/particle_group.hpp`: 443-452
* `include/neso_particles/profiling.hpp`: 44-295
* `include/neso_particles/typedefs.hpp`: 156-231, 364-381, 477-479
* `src/algorithms/common.cpp`: 12-31
* `src/compute_target.cpp`: 28-42, 107-171
* `src/device_limits.cpp`: 1-130

**Boundary**

* `include/neso_particles/algorithms/unseen_value_extractor.hpp`: 51-145
* `include/neso_particles/boundary/boundary_mesh_interface.hpp`: 22-113, 115-153, 155-194, 233-249, 262-278, 351-372, 374-402, 404-431, 433-454, 467-524, 536-599
* `include/neso_particles/boundary/boundary_reflection.hpp`: 20-39
* `include/neso_particles/boundary/boundary_truncation.hpp`: 25-95
* `include/neso_particles/cartesian_mesh/cartesian_trajectory_intersection.hpp`: 20, 41-47, 58-76, 78-523
* `include/neso_particles/containers/ephemeral_dats.hpp`: 79-103
* `include/neso_particles/device_buffers.hpp`: 73-91, 103-124
* `include/neso_particles/device_functions.hpp`: 79-85, 250-272, 336-360
* `include/neso_particles/loop/pli_particle_dat.hpp`: 37-45
* `src/boundary/boundary_interaction_specification.cpp`: 6-32, 34-47
* `src/boundary/boundary_mesh_interface.cpp`: 6-34, 36-38, 40-42, 55-309, 311-314, 316-318
* `src/boundary/boundary_reflection.cpp`: 8-75
* `src/boundary/boundary_truncation.cpp`: 5-66
* `src/cartesian_mesh/cartesian_h_mesh.cpp`: 726-734
* `src/cartesian_mesh/cartesian_h_mesh_function.cpp`: 5-27, 73-82, 84-93, 95-106
* `src/cartesian_mesh/cartesian_trajectory_intersection.cpp`: 11-50, 52-57, 59-64, 72-73, 81-108, 134-142, 148-173, 175-272, 274-288, 291-304, 307-384
* `src/communication/communication_utility.cpp`: 21-43
* `src/parallel_initialisation.cpp`: 26-49, 58-90, 100-119, 142-152

**Comm**

* `include/neso_particles/communication/comm_pair.hpp`: 24-41, 55-79
* `include/neso_particles/communication/communication_utility.hpp`: 109-299
* `include/neso_particles/global_move_exchange.hpp`: 75-150
* `include/neso_particles/local_move.hpp`: 122-141
* `src/communication/communication_edges_counter.cpp`: 12-35, 37-72, 74-98, 100-111
* `src/communication/communication_utility.cpp`: 45-104, 121-170
* `src/compute_target.cpp`: 5-26, 141-149

**Containers**

* `include/neso_particles/containers/blocked_binary_tree.hpp`: 18-36, 41-47, 57-65, 75-82, 102-111, 126-147, 156-186, 199-210, 218-237, 244-254, 282-293, 301-349, 358-380
* `include/neso_particles/containers/cell_dat_const.hpp`: 131-138, 355, 373-386, 392-424, 437
* `include/neso_particles/containers/global_array.hpp`: 53-55, 173-175, 181-186, 197-208, 213-266, 277-281, 298-308, 315-320, 328-361
* `include/neso_particles/containers/local_array.hpp`: 53-55, 235, 241, 252-254, 271-280, 287-292, 311-331, 339-370, 378-381
* `include/neso_particles/containers/lookup_table.hpp`: 28-52, 59-67, 76-92, 100-109, 118-135
* `include/neso_particles/containers/nd_index.hpp`: 15-27, 40-45, 50-56
* `include/neso_particles/containers/nd_local_array.hpp`: 56-68, 303-308
* `include/neso_particles/containers/resource_stack.hpp`: 46-56, 66-118
* `include/neso_particles/containers/resource_stack_map.hpp`: 16-186
* `include/neso_particles/containers/rng/host_atomic_block_kernel_rng.hpp`: 20-45, 57-60, 66-72, 74-84, 86-92, 94-98, 111-220, 238-249
* `include/neso_particles/containers/rng/host_per_particle_block_rng.hpp`: 37-39, 50-55, 89-99, 126-190, 192-196
* `include/neso_particles/containers/rng/host_rng_common.hpp`: 90-139, 194-218, 220-222
* `include/neso_particles/containers/rng/null_kernel_rng.hpp`: 52-80
* `include/neso_particles/containers/rng/tuple_rng.hpp`: 19-37, 66-192
* `include/neso_particles/containers/tuple.hpp`: 14-25, 35-48, 72-75, 91-95, 97-108
* `include/neso_particles/device_buffers.hpp`: 19-25, 43-53, 72-91, 103-124, 132-154, 162-185
* `include/neso_particles/device_functions.hpp`: 466-507, 552-588, 608-618
* `include/neso_particles/loop/particle_loop.hpp`: 151-309
* `include/neso_particles/loop/particle_loop_reduction.hpp`: 82-137
* `include/neso_particles/mesh_hierarchy_data/mesh_hierarchy_container.hpp`: 58-96, 98-102, 104-121, 135-145, 154-267, 278-347
* `include/neso_particles/mesh_hierarchy_data/serial_container.hpp`: 39-68, 75-106, 114-118
* `include/neso_particles/mesh_hierarchy_data/serial_interface.hpp`: 12-39
* `include/neso_particles/particle_sub_group/particle_loop_sub_group_reduction.hpp`: 74-134

**Dsmc**

* `include/neso_particles/algorithms/dsmc/cellwise_all_to_all.hpp`: 16-44, 46-70, 72-103
* `include/neso_particles/algorithms/dsmc/collision_cell_partition.hpp`: 32-34, 44-51, 61-71, 81-88, 95-133
* `include/neso_particles/algorithms/dsmc/pair_sampler_no_replacement.hpp`: 18-36
* `include/neso_particles/particle_sub_group/sub_group_selector_base.hpp`: 33-38
* `include/neso_particles/particle_sub_group/sub_group_selector_whole_group.hpp`: 48
* `src/algorithms/dsmc/collision_cell_partition.cpp`: 6-38, 40-169, 171-291, 293-300
* `src/algorithms/dsmc/pair_sampler_no_replacement.cpp`: 5-39, 41-368, 370-372, 374-393
* `src/algorithms/dsmc/pair_sampler_ntc.cpp`: 28-393, 395-412

**Group**

* `include/neso_particles/cell_dat_compression.hpp`: 97-340, 353-616, 634-878
* `include/neso_particles/containers/cell_dat.hpp`: 160-202, 270-281, 283-296, 302-337, 380-385, 391-399, 407-416, 439-445, 452-457, 464-469, 477-496, 506-513, 523-529, 568-590
* `include/neso_particles/containers/cell_data.hpp`: 18-104
* `include/neso_particles/containers/descendant_products.hpp`: 54-55, 73-74, 84-91
* `include/neso_particles/containers/particle_set_device.hpp`: 64-83, 105-131, 158-176, 258-285
* `include/neso_particles/containers/product_matrix.hpp`: 61-83, 103-127, 153-175
* `include/neso_particles/device_buffers.hpp`: 72-91
* `include/neso_particles/particle_dat.hpp`: 280-299, 683-707, 714-719
* `include/neso_particles/particle_group.hpp`: 161-174, 195-207, 212-231, 233-235, 279-311, 349-355, 359-369, 384-409, 428-459, 619-667, 807-814
* `include/neso_particles/particle_group_impl.hpp`: 29-35
* `include/neso_particles/particle_group_pointer_map.hpp`: 17-42, 104-135, 158-161, 177-211
* `include/neso_particles/particle_group_temporary.hpp`: 19-22, 28-31
* `include/neso_particles/particle_remover.hpp`: 49-115
* `include/neso_particles/particle_set.hpp`: 46-66
* `include/neso_particles/particle_spec.hpp`: 46-71, 186-196, 201-211
* `src/cell_dat_move.cpp`: 7-296
* `src/containers/descendant_products.cpp`: 25-42
* `src/containers/particle_set_device.cpp`: 15-30, 33-41, 43-59, 61-77, 79-108, 118-160, 162-194, 196-236
* `src/particle_group.cpp`: 7-32, 75-135, 137-234, 239-251, 253-274, 276-463, 465-718, 720-805, 807-1013, 1019-1055, 1057-1083, 1124-1129, 1131-1152, 1154-1200
* `src/particle_group_pointer_map.cpp`: 5-166, 168-235, 237-277
* `src/particle_group_temporary.cpp`: 6-63, 65-75
* `src/particle_set.cpp`: 16-29, 41-54, 72-78, 80-104, 106-130
* `src/particle_sub_group/particle_sub_group_base.cpp`: 165-240

**Hybrid**

* `src/cartesian_mesh.cpp`: 6-174, 176-227, 229-232
* `src/cartesian_mesh/cartesian_cell_bin.cpp`: 7-42, 90-94
* `src/cartesian_mesh/cartesian_h_mesh.cpp`: 113-119
* `src/global_mapping.cpp`: 11-237, 246, 248-249
* `src/mesh_hierarchy.cpp`: 212-215
* `src/particle_group.cpp`: 119-123, 1098-1118, 1124-1129

**Io**

* `include/neso_particles/external_interfaces/vtk/vtk.hpp`: 34-49, 63-145
* `include/neso_particles/particle_io.hpp`: 31, 49-106, 227-312
* `src/external_interfaces/vtk/vtk.cpp`: 74-211
* `src/particle_io.cpp`: 49-77, 79-163
* `src/particle_set.cpp`: 5-14

**Loop**

* `include/neso_particles/containers/cell_dat_const.hpp`: 363-367
* `include/neso_particles/containers/local_memory_block.hpp`: 12-34, 50, 82-92, 97-102, 107-110
* `include/neso_particles/containers/local_memory_interlaced.hpp`: 14-37, 67, 97-107, 113-118, 123-126
* `include/neso_particles/loop/particle_loop.hpp`: 151-199, 216-286, 292-308, 324-332
* `include/neso_particles/loop/particle_loop_args.hpp`: 356-378
* `include/neso_particles/loop/particle_loop_base.hpp`: 108-111, 234
* `include/neso_particles/loop/particle_loop_index.hpp`: 47-49, 53-58, 64-66
* `include/neso_particles/loop/particle_loop_iteration_set.hpp`: 61-66, 75-84, 92-97, 105-108, 159-177
* `include/neso_particles/loop/particle_loop_reduction.hpp`: 82-137
* `include/neso_particles/particle_group.hpp`: 359-369
* `include/neso_particles/particle_sub_group/particle_loop_sub_group.hpp`: 77-140, 157-245
* `src/compute_target.cpp`: 382-409
* `src/loop/particle_loop_base.cpp`: 7-32, 58-81
* `src/loop/particle_loop_iteration_set.cpp`: 76-85, 87-105, 125-218, 220-227, 229-235, 237-248
* `src/loop/particle_loop_utility.cpp`: 5-31
* `src/particle_sub_group/sub_group_selector.cpp`: 98-103

**Mesh**

* `include/neso_particles/external_interfaces/common/coordinate_mapping.hpp`: 23-38, 50-63, 132-224, 242-256, 276-285, 302-310, 338-364, 393-412
* `include/neso_particles/external_interfaces/common/overlay_cartesian_mesh.hpp`: 32-39, 49-56, 64-72, 153-160
* `include/neso_particles/mesh_hierarchy.hpp`: 21, 287-327, 341-347, 358-376, 385-392, 404-447
* `include/neso_particles/typedefs.hpp`: 141-151
* `include/neso_particles/utility.hpp`: 28-44
* `include/neso_particles/utility_mesh_hierarchy_plotting.hpp`: 16-77
* `src/cartesian_mesh.cpp`: 6-174, 192-216
* `src/cartesian_mesh/cartesian_cell_bin.cpp`: 18-41
* `src/cartesian_mesh/cartesian_h_mesh.cpp`: 5-36, 38-96, 107-111, 113-116, 131-137, 139-158, 162-202, 207-209, 212-216, 219-225, 231-243, 245-254, 256-261, 263-265, 269-275, 281-333, 366-374, 395-401, 403-417, 419-441, 443-462, 464-507, 509-536, 538-551, 553-570, 572-720
* `src/cartesian_mesh/cartesian_h_mesh_function.cpp`: 42-70
* `src/cartesian_mesh/cartesian_periodic.cpp`: 24-38, 65-82
* `src/communication/communication_utility.cpp`: 188-275
* `src/external_interfaces/common/local_claim.cpp`: 5-15, 17-35, 37-46, 48-125, 127-147
* `src/external_interfaces/common/overlay_cartesian_mesh.cpp`: 5-22, 24-42, 44-58, 60-98, 122-138, 140-146, 148-167, 169-210
* `src/global_mapping.cpp`: 11-237, 241-253
* `src/mesh_hierarchy.cpp`: 5-21, 23-69, 82-87, 89-105, 107-111, 113-127, 129-144, 146-159, 161-210, 212-215, 217-228, 230-296, 298-320
* `src/parallel_initialisation.cpp`: 15-18
* `src/utility.cpp`: 19-77

**Move**

* `include/neso_particles/global_move.hpp`: 88-149, 159-200
* `include/neso_particles/global_move_exchange.hpp`: 104-119, 226-228
* `include/neso_particles/local_move.hpp`: 82-183, 199-369
* `include/neso_particles/particle_dat.hpp`: 511-521, 692-712
* `src/departing_particle_identification.cpp`: 18-139
* `src/packing_unpacking.cpp`: 5-41, 43-150, 152-173, 175-201, 203-318
* `src/particle_group.cpp`: 1086-1096
* `src/particle_group_pointer_map.cpp`: 56-68, 96-106

**Pair**

* `include/neso_particles/device_buffers.hpp`: 73-91
* `include/neso_particles/error_propagate.hpp`: 84-89
* `include/neso_particles/pair_loop/cellwise_pair_list.hpp`: 20-32, 66-94
* `include/neso_particles/pair_loop/cellwise_pair_list_block.hpp`: 15-55
* `include/neso_particles/pair_loop/cellwise_pair_list_host.hpp`: 28-37
* `include/neso_particles/pair_loop/particle_pair_loop_args.hpp`: 262-272
* `include/neso_particles/pair_loop/particle_pair_loop_cellwise_pair_list.hpp`: 102-321
* `include/neso_particles/pair_loop/particle_pair_loop_cellwise_pair_list_block.hpp`: 109-351
* `src/pair_loop/cellwise_pair_list_block.cpp`: 6-62, 64-198, 200-293, 295-313, 315-347
* `src/pair_loop/cellwise_pair_list_host.cpp`: 5-6, 8-18, 20-27, 29-35, 37-40, 42-44
* `src/pair_loop/cellwise_pair_list_simple.cpp`: 6-21, 23-123, 125-229, 231-252, 254-268, 270-289

**Petsc**

* `include/neso_particles/containers/blocked_binary_tree.hpp`: 126-147
* `include/neso_particles/containers/cell_dat_const.hpp`: 52-54, 67, 131-138, 583-666, 806-815, 824-833
* `include/neso_particles/device_functions.hpp`: 112-124, 141-228
* `include/neso_particles/external_interfaces/common/bounding_box.hpp`: 98-104
* `include/neso_particles/external_interfaces/petsc/boundary_interaction/boundary_interaction_2d.hpp`: 44-50, 66-72, 74, 109-166, 171-264
* `include/neso_particles/external_interfaces/petsc/boundary_interaction/boundary_interaction_common.hpp`: 37-57, 59-165, 167-342
* `include/neso_particles/external_interfaces/petsc/dmplex_helper.hpp`: 63-70, 106-166, 216-223
* `include/neso_particles/external_interfaces/petsc/dmplex_mesh_coupler_dg0.hpp`: 14-21, 46-117
* `include/neso_particles/external_interfaces/petsc/particle_cell_mapping/dmplex_2d_mapper.hpp`: 20-26
* `include/neso_particles/external_interfaces/petsc/petsc_utility.hpp`: 17-54
* `include/neso_particles/external_interfaces/petsc/project_evaluate/dmplex_project_evaluate_barycentric.hpp`: 27-33, 35-126, 141-158, 163-254, 256-317
* `include/neso_particles/external_interfaces/petsc/project_evaluate/dmplex_project_evaluate_dg.hpp`: 28-65, 67-104
* `include/neso_particles/loop/particle_loop_index.hpp`: 40-58
* `src/communication/communication_utility.cpp`: 21-43
* `src/external_interfaces/common/quadrature_point_mapper.cpp`: 275-276
* `src/external_interfaces/petsc/boundary_interaction/boundary_interaction_2d.cpp`: 8-29, 31-84, 117-277
* `src/external_interfaces/petsc/boundary_interaction/boundary_interaction_common.cpp`: 30-79, 81-123
* `src/external_interfaces/petsc/dmplex_cell_serialise.cpp`: 7-29, 31-80, 82-94, 122-166, 168-223, 225-243, 245-261
* `src/external_interfaces/petsc/dmplex_helper.cpp`: 120-235, 237-261, 266, 276-285, 289, 298-302, 337-348, 350-356, 358-369, 371-405, 434-805
* `src/external_interfaces/petsc/dmplex_interface.cpp`: 6-61, 63-90, 92-163, 165-182, 268-439
* `src/external_interfaces/petsc/dmplex_mesh_coupler_dg0.cpp`: 9-309, 311-324, 326-380, 382-436
* `src/external_interfaces/petsc/dmplex_utility.cpp`: 7-126, 130-195, 212-214, 216-358
* `src/external_interfaces/petsc/particle_cell_mapping/dmplex_2d_mapper.cpp`: 7-166, 168-273
* `src/external_interfaces/petsc/particle_cell_mapping/dmplex_host_mapper.cpp`: 16-167
* `src/external_interfaces/petsc/project_evaluate/dmplex_project_evaluate_barycentric.cpp`: 7-26, 28-91
* `src/external_interfaces/petsc/project_evaluate/dmplex_project_evaluate_dg.cpp`: 15-21, 23-33, 35-79, 105-127, 129-163

**Points**

* `include/neso_particles/external_interfaces/common/dof_mapper_dg.hpp`: 24-26, 37-43, 54-60, 67-77
* `include/neso_particles/external_interfaces/common/quadrature_point_mapper.hpp`: 67-81, 83-108, 207-240, 253-274
* `src/external_interfaces/common/dof_mapper_dg.cpp`: 5-12, 14-20, 22-105
* `src/external_interfaces/common/quadrature_point_mapper.cpp`: 6-21, 31-39, 50-65, 69-245, 251-270, 275-276, 285-347, 349-375

**Sub**

* `include/neso_particles/containers/ephemeral_dats.hpp`: 70-91, 98-105
* `include/neso_particles/containers/sym_vector_impl.hpp`: 11-51, 53-78
* `include/neso_particles/containers/sym_vector_pointer_cache.hpp`: 18-36, 52-58, 68-75, 101-132, 166-173
* `include/neso_particles/loop/cell_info_npart.hpp`: 16-77
* `include/neso_particles/loop/particle_loop.hpp`: 151-199, 227-285
* `include/neso_particles/loop/particle_loop_base.hpp`: 24-40, 215-236
* `include/neso_particles/loop/particle_loop_index.hpp`: 53-58
* `include/neso_particles/particle_dat.hpp`: 227-299, 426-805
* `include/neso_particles/particle_group.hpp`: 195-207, 253-257, 280-285, 287-311, 349-355, 435
* `include/neso_particles/particle_group_impl.hpp`: 34
* `include/neso_particles/particle_sub_group/cell_sub_group_selector.hpp`: 34-64
* `include/neso_particles/particle_sub_group/particle_group_partition.hpp`: 172-193, 200-219
* `include/neso_particles/particle_sub_group/particle_loop_sub_group.hpp`: 26-36, 77-233
* `include/neso_particles/particle_sub_group/particle_loop_sub_group_functions.hpp`: 29-40
* `include/neso_particles/particle_sub_group/particle_sub_group_base.hpp`: 30
* `include/neso_particles/particle_sub_group/sub_group_selector.hpp`: 91-108
* `include/neso_particles/particle_sub_group/sub_group_selector_base.hpp`: 35-38, 44-53
* `include/neso_particles/particle_sub_group/sub_group_selector_exclusive_scan.hpp`: 64-192, 219-229
* `include/neso_particles/particle_sub_group/sub_group_selector_whole_group.hpp`: 26-29
* `include/neso_particles/typedefs.hpp`: 509
* `src/containers/ephemeral_dats.cpp`: 4-15, 43-51, 53-65
* `src/loop/particle_loop_base.cpp`: 37-39, 49-51
* `src/particle_group.cpp`: 34-72, 250, 253-274, 298, 444, 700, 800, 810, 1089, 1095, 1117, 1128, 1131-1152
* `src/particle_sub_group/cell_sub_group_selector.cpp`: 19-186
* `src/particle_sub_group/copy_selector.cpp`: 14-81
* `src/particle_sub_group/discard_sub_group_selector.cpp`: 10-143
* `src/particle_sub_group/disjoint_union_sub_group_selector.cpp`: 24-127
* `src/particle_sub_group/particle_group_partition.cpp`: 36-202
* `src/particle_sub_group/particle_sub_group_base.cpp`: 7-28, 32-46, 111-124, 128-134, 136-143
* `src/particle_sub_group/sub_group_particle_map.cpp`: 21-22, 27-55
* `src/particle_sub_group/sub_group_selector.cpp`: 9-23, 28-42, 45-68, 70-130
* `src/particle_sub_group/sub_group_selector_base.cpp`: 7-30, 75-94, 105-137, 139-152
* `src/particle_sub_group/truncate_sub_group_selector.cpp`: 10-139

## Axioms of each theorem

As printed by `lean/Verif/Audit.lean`.

* **none** (6): `C01_zero_units`, `C02_out_of_range_divides_by_zero`, `C06_zero_undefined`, `C17_fresh_nrow_min`, `C18_required_properties_stay`, `C54_rejects`
* **propext** (26): `C11_negative_cell_id_also_removed`, `C18_small_hint_too_few_rows`, `C18_small_hint_loses_values`, `C23_union_overlap`, `C24_stale_set_value`, `C24_stale_pointer`, `C24_stale_added_again`, `C24_stale_static_parent`, `C35_large_offset_fails`, `C49_last_fastest`, `C53_empty_buffer_cannot_grow`, `C55_overlapping_self_pair`, `C57_labels_not_checked`, `C57_no_species_fails`, `C58_block_sizes_not_checked`, `C58_empty_list_shifts`, `C58_push_after_set_loses`, `C76_one_name`, `C78_size_three`, `C82_copy_from_ignores`, `C83_broadcast_rejects`, `C85_orientation`, `C94_contained`, `C98_once`, `C98_missing_quantity`, `C99_one_dimension`
* **propext, Quot.sound** (89): `C06_next_multiple`, `C06_min_power_of_two`, `C10_protocol`, `C10_accepted_calls`, `C10_idle_after_wait`, `C11_remove_host_short`, `C13_bad_cell_rejected`, `C13_no_cells_rejected`, `C17_fixed_host_device`, `C18_clear`, `C19_descendant_rows`, `C20_rejects`, `C23_no_cells`, `C30_setup_rejects`, `C32_union_unique`, `C33_constructor`, `C34_owner_unique`, `C34_bad_weight`, `C45_round_trip`, `C45_cell_buffer`, `C45_nested`, `C46_large_cells_mixed`, `C51_no_components_spurious`, `C53_realloc_no_copy`, `C53_realloc_partial`, `C53_realloc_shrink_overflows`, `C53_set_get`, `C55_stale_list`, `C60_rejects`, `C70_one_value`, `C74_at_unchecked`, `C75_missing_property_rejected`, `C75_step_numbers`, `C76_one_name_sub`, `C76_group_runs`, `C76_sub_runs`, `C76_stale_added_again`, `C76_stale_added_again_sub`, `C76_stale_ephemeral`, `C76_stale_shadowed`, `C77_gone_after_change_partial`, `C77_gone_after_write`, `C77_whole_group_stale`, `C79_host_list`, `C79_global`, `C79_global_sizes`, `C80_second_positions`, `C82_unset_fails`, `C83_npart_rejects`, `C83_negative_row`, `C83_element_wise_rejects`, `C83_copies_reject`, `C84_round_trip`, `C84_used_object`, `C84_container`, `C84_halo_empty`, `C84_collect`, `C84_point_lookup`, `C84_point_lookup_signed`, `C87_point_index`, `C88_pre`, `C89_evaluate`, `C89_output`, `C89_new`, `C89_lost`, `C92_sizes`, `C93_contains`, `C93_bad_cell`, `C94_fresh`, `C95_alone`, `C97_reals`, `C97_ints`, `C102_fatal`, `C103_unchecked_arguments`, `C105_limits`, `C105_local_memory_wraps`, `C105_env`, `C106_get_fails`, `C106_wrong_key`, `C108_submit`, `C108_components`, `C108_draws`, `C108_again`, `C111_get`, `C111_set`, `C111_hint`, `C111_hint_set`, `C112_intra`, `C112_local_rank`
* **propext, Classical.choice, Quot.sound** (458): `C01_decomp_balanced_partition`, `C02_inverse_finds_owner`, `C02_inverse_iff`, `C03_exclusive_scan`, `C03_exclusive_scan_group`, `C03_exclusive_scan_blocking`, `C04_exclusive_scan_n`, `C04_exclusive_scan_nm`, `C04_inclusive_scan_n`, `C04_exclusive_scan_n_sum`, `C05_transpose_partial`, `C05_degenerate_not_transposed`, `C06_div_round_up`, `C06_prev_power_of_two`, `C06_is_power_of_two`, `C07_each_particle_once`, `C07_bad_cells_rejected`, `C07_iteration_set`, `C08_strided_each_particle_once`, `C08_strided_iteration_set`, `C09_local_linear_index`, `C09_loop_linear_index`, `C09_sub_linear_index`, `C11_remove_keeps_others`, `C11_remove_host`, `C12_sparse_keeps_others`, `C13_add_particle_set`, `C14_add_group`, `C14_add_group_rejected`, `C14_add_sub_group`, `C14_add_own_sub_group`, `C15_cell_move`, `C15_bad_cell_rejected`, `C16_particle_remover`, `C17_history`, `C17_get_cell`, `C17_nrow_max`, `C17_nrow_min_partial`, `C17_address_model`, `C17_fixed_no_aliasing`, `C18_new_group`, `C18_counts_agree`, `C18_valid_call`, `C18_valid_history`, `C18_add_property`, `C18_incompatible_property_rejected`, `C18_remove_property`, `C19_entries_independent`, `C19_default_value`, `C19_get`, `C19_set`, `C19_parents`, `C20_products_partial`, `C20_descendants`, `C20_cell_from_wrong_column`, `C20_unset_parent_fails`, `C21_selected`, `C21_members`, `C21_nested`, `C21_cells_layers`, `C22_order_preserved`, `C22_increasing`, `C22_deterministic`, `C23_truncate`, `C23_discard`, `C23_truncate_discard`, `C23_cells`, `C23_copy`, `C23_union`, `C23_disjoint_union`, `C24_current_partial`, `C24_use_succeeds`, `C24_select_partial`, `C24_static_kept`, `C24_static_invalid`, `C25_partition`, `C25_members`, `C26_identify`, `C27_pack`, `C27_unpack`, `C27_round_trip`, `C28_global_move`, `C28_conserves`, `C29_remote_ranks`, `C29_each_once`, `C29_ordered`, `C29_data`, `C29_counts_then_data`, `C30_setup`, `C30_local_move`, `C30_conserves`, `C30_unreachable`, `C31_alltoallw`, `C31_alltoall`, `C32_reduce`, `C32_all_reduce`, `C33_coarse`, `C33_fine`, `C33_global`, `C34_owner`, `C34_independent`, `C35_single_cell_partial`, `C35_coordinates`, `C35_neighbours_partial`, `C35_large_offset_wrong_cell`, `C36_position_to_cell`, `C36_cell_unique`, `C36_execute`, `C36_reset`, `C36_beyond_detected`, `C36_below_origin_not_rejected`, `C36_execute_beyond`, `C37_cell`, `C37_in_range`, `C38_wrap`, `C38_wrap_masked`, `C39_partition`, `C39_local_index`, `C39_hierarchy_owner`, `C40_bijection`, `C40_owner`, `C40_owned`, `C41_local_mapper`, `C42_reordered`, `C42_reordered_optimal`, `C42_lower`, `C42_single`, `C42_accepted`, `C42_search_incomplete`, `C43_map`, `C43_claims`, `C44_index`, `C44_cell`, `C44_intersecting_partial`, `C44_three_dimensions_fail`, `C44_create`, `C46_get`, `C46_not_gathered`, `C47_map`, `C47_device_lookup`, `C48_lookup`, `C48_out_of_range_rejected`, `C49_range`, `C49_order`, `C49_onto`, `C50_get`, `C50_free`, `C50_restore`, `C51_no_sample_twice`, `C51_invalid_iff_reported`, `C51_reads_past_the_samples`, `C51_enough_samples`, `C51_no_components`, `C52_distinct_samples`, `C54_waves`, `C54_clear`, `C54_conflict_free`, `C54_each_once`, `C55_sample_partial`, `C55_rejects`, `C55_whole_group_fails`, `C56_sample`, `C56_rejects`, `C56_requests_not_checked`, `C57_entries`, `C57_create`, `C57_max_occupancy`, `C57_max_num_pairs`, `C57_rejects`, `C58_block_calls`, `C58_block_indices`, `C58_calls`, `C58_indices_partial`, `C58_list_set`, `C58_list_set_rejects`, `C58_list_clear`, `C58_list_push`, `C58_list_clear_push_partial`, `C58_list_push_rejects`, `C58_host_loop`, `C58_push_after_set_aborts`, `C59_each_value_once`, `C59_never_again`, `C60_component`, `C60_components_partial`, `C60_surplus_components`, `C61_reflect`, `C61_unique`, `C61_sign`, `C61_involution`, `C61_rejects`, `C62_truncate_partial`, `C62_zero_reset_fails`, `C63_numbering`, `C63_extension`, `C63_rejects`, `C63_forward`, `C63_backward`, `C63_backward_host_memory`, `C64_on_the_way`, `C64_reaches`, `C64_start`, `C65_cart_tuples`, `C65_no_trunc_partial`, `C65_no_trunc_off_by_one`, `C66_neighbours`, `C67_reduction`, `C67_rejects`, `C68_departs`, `C68_exit`, `C68_point_unique`, `C68_start_on_wall`, `C68_along_wall`, `C69_shared_side`, `C69_missing`, `C69_groups`, `C69_once`, `C69_pre`, `C69_step`, `C69_rejects`, `C70_runs`, `C70_contributions`, `C70_project`, `C70_evaluate`, `C70_conserved`, `C70_integral`, `C70_fill_one_rank`, `C70_stale`, `C70_final_short`, `C70_project_any`, `C70_evaluate_any`, `C70_unknown_rejected`, `C71_owned`, `C71_partition`, `C71_registered`, `C71_project`, `C71_repeated_side`, `C72_setup`, `C72_hybrid_move`, `C72_owner_map`, `C72_cell_move`, `C72_step`, `C73_execute`, `C73_history`, `C73_ranks_agree`, `C73_only_last_submission`, `C73_two_loops_in_flight`, `C73_contributions_lost`, `C73_local_history`, `C73_local_accepts`, `C73_local_new`, `C73_fetch_add`, `C73_unique_indices`, `C74_get_particles`, `C74_get_particles_rejects`, `C74_spec_current`, `C74_sub_group`, `C74_sub_group_rejects`, `C74_new_set`, `C74_set_component`, `C74_set_element`, `C74_set_from`, `C74_round_trip`, `C74_remove_sub_group`, `C75_write`, `C75_names_distinct`, `C75_same_name_rejected`, `C75_read`, `C75_round_trip`, `C75_earlier_steps_kept`, `C75_history`, `C75_empty_step_unreadable`, `C76_group_partial`, `C76_sub_partial`, `C76_same_as_one_by_one_partial`, `C77_rows_partial`, `C77_rows_vector_partial`, `C77_add`, `C77_add_rejected`, `C77_remove`, `C77_kept`, `C78_each_pair_once`, `C78_phases`, `C79_ntc_validates`, `C79_validate`, `C79_validated`, `C79_occupancy`, `C79_mean`, `C79_pairs_in_waves`, `C80_get`, `C80_restore`, `C81_get_partial`, `C81_get_fails`, `C81_interpolate_partial`, `C81_set`, `C81_set_get_partial`, `C81_order`, `C82_get`, `C82_copy_to_partial`, `C82_copy_from_wrong`, `C83_npart_cell`, `C83_element_wise`, `C83_copies`, `C83_broadcast`, `C84_pack`, `C84_cells`, `C84_halo`, `C85_contains`, `C85_top_missed`, `C85_map`, `C85_check`, `C85_box`, `C85_top_edge_lost`, `C85_box_changed`, `C86_triangle`, `C86_triangle_flat`, `C86_bilinear`, `C86_quad_partial`, `C86_parallelogram`, `C86_upright`, `C86_quad_sound`, `C86_weights`, `C86_quad_weights_partial`, `C86_quad_lost`, `C86_outside_accepted`, `C86_torus`, `C86_torus_inverse`, `C86_torus_axis`, `C87_runs`, `C87_forward`, `C87_backward`, `C87_conserved`, `C87_transpose`, `C87_bad_cell`, `C87_rejected`, `C88_intersect`, `C88_normal`, `C88_reported`, `C88_found_partial`, `C88_first_crossing_partial`, `C88_normal_get`, `C88_normal_get_null`, `C88_three_components`, `C88_rejected`, `C88_top_missed`, `C89_project`, `C89_conserved`, `C89_get`, `C89_set`, `C89_evaluate_points`, `C89_round_trip`, `C90_project`, `C90_conserved`, `C90_evaluate`, `C90_affine`, `C90_round_trip`, `C90_output`, `C90_output_evaluate`, `C90_new`, `C91_setup`, `C91_owner`, `C91_touching`, `C91_cover`, `C91_hierarchy`, `C91_box_inside`, `C91_flat`, `C91_neighbours`, `C91_unowned`, `C92_labels`, `C92_missing`, `C92_wide`, `C92_order_needed`, `C93_map`, `C93_overlap`, `C94_cell`, `C94_completes`, `C94_too_small`, `C94_last_attempt`, `C94_cells`, `C94_density`, `C94_inside`, `C95_linear`, `C95_returns`, `C95_max`, `C95_min`, `C96_inverse3`, `C96_inverse4`, `C96_singular`, `C96_solve`, `C96_cross`, `C97_read`, `C97_write`, `C97_counts`, `C97_memory`, `C98_read`, `C98_sizes`, `C99_cells`, `C99_face`, `C99_faces`, `C99_function`, `C100_write`, `C100_fine`, `C100_coarse`, `C101_fits`, `C101_refused`, `C101_each_particle_once`, `C101_private`, `C102_truth`, `C102_rank_local`, `C103_history`, `C103_refused`, `C103_fetched`, `C103_any_order`, `C104_vertices`, `C104_average`, `C104_table`, `C104_face_sets`, `C104_volume`, `C104_vtk_cells`, `C104_vtk_file`, `C104_mapper_vertex`, `C104_mapper_average`, `C104_mapper_concave`, `C105_nd_range`, `C105_group_wraps`, `C105_zero_local`, `C105_working_device`, `C105_accepted`, `C105_integer_sums_blind`, `C106_get`, `C106_reuse`, `C106_restore`, `C106_free`, `C107_reported`, `C107_below`, `C107_flag`, `C107_order`, `C107_wraps`, `C109_entries`, `C109_events`, `C109_regions`, `C109_region_times`, `C109_fails`, `C109_enable_inside`, `C109_reset_keeps_events`, `C109_json_lines`, `C109_json_keys`, `C109_json_quotes`, `C110_positions`, `C110_samples`, `C111_target`, `C111_store`, `C111_negative`, `C112_inter`, `C112_devices`, `C112_negative`, `C113_count`, `C113_positive`
