import Verif.Sub.Model
import Verif.Comm.ModelSet
import Verif.Containers.ModelTree
import Verif.Containers.SpecTree

/-!
# Model: `DSMC::CollisionCellPartition`

Models `src/algorithms/dsmc/collision_cell_partition.cpp` and
`algorithms/dsmc/collision_cell_partition.hpp`. The particles are given by the cell counts of
the group and the sub group (`Parent`, as in the sub group model); the species and the collision
cell of the particle in row `layer` of cell `cell` are `sp cell layer` and `cc cell layer`. The
integers do not overflow.
-/

set_option autoImplicit false

namespace NP

/-- `CollisionCellPartition`, collision_cell_partition.hpp:95-133. The map
`map_species_id_to_linear` sends `species[i]` to `i`. -/
structure CollPart where
  cellCount : Nat
  /-- `species_ids` -/
  species : List Int
  /-- `h_map_species_id_linear_id` -/
  tree : BlockedTree Nat
  /-- `collision_cell_counts` -/
  ccCounts : List Nat
  /-- `max_num_collision_cells` -/
  maxCC : Nat
  /-- `max_collision_cell_occupancy` -/
  maxOcc : Int
  /-- `d_collision_cell_offsets` -/
  offsets : List Nat
  /-- `d_map_entries` -/
  entries : List Nat

/-- What a construct depends on besides its arguments: loop parameters, the order in which the
particles are visited by the two loops and the work items of the scan run, the contents of
memory that was allocated or left over from an earlier use, by how much the buffers are larger
than requested, parameters of the scan, and the node width of the tree. -/
structure CollEnv where
  P : LoopParams
  s0 : Sched
  s1 : Sched
  t0 : Sched
  t1 : Sched
  t2 : Sched
  s3 : Sched
  fresh : Fresh Nat
  over : Nat
  scanLocal : Nat
  units : Nat
  width : Nat
  garbage : Nat → TreeNode Nat

/-- Constructor, collision_cell_partition.cpp:6-38: the species go through a `std::set`. The
buffers made on lines 16-21 are resized by `construct` before they are used and start empty
here. -/
def collPartCreate (e : CollEnv) (cellCount : Nat) (ids : List Int) : Option CollPart :=
  if cellCount > 0 then
    let set := rankSetInsertAll [] ids
    (Spec.treeAdds e.width e.garbage 0 (BlockedTree.create Nat) set.zipIdx).bind fun t =>
    some ⟨cellCount, set, t, List.replicate cellCount 0, 0, 0, [], []⟩
  else none

/-- `num_species`, collision_cell_partition.cpp:34. -/
def CollPart.numSpecies (p : CollPart) : Nat := p.species.length

/-- `CollisionCellPartitionDevice::get_linear_species_index`,
collision_cell_partition.hpp:32-34: a lookup in the tree, from its root. The root is null if
there are no species. -/
def CollPart.linearIndex (p : CollPart) (width : Nat) (id : Int) : Option (Option Nat) :=
  p.tree.root.bind fun root => nodeGet p.tree.heap root width id

/-- `get_linear_species_id`, collision_cell_partition.cpp:293-300. -/
def CollPart.linearId (p : CollPart) (id : Int) : Option Nat :=
  if id ∈ p.species then some (p.species.idxOf id) else none

/-- `get_offset_cell_species`, collision_cell_partition.hpp:61-71. -/
def CollPart.slot (p : CollPart) (cell : Nat) (q : Int) (lin : Nat) : Int :=
  cell * (p.maxCC * p.numSpecies : Nat) + q * p.numSpecies + lin

/-- `get_num_particles_cell_species`, collision_cell_partition.hpp:44-51. -/
def CollPart.numParticles (p : CollPart) (cell : Nat) (q : Int) (lin : Nat) : Option Int :=
  (index (p.slot cell q lin)).bind fun o =>
  (rd p.offsets (o + 1)).bind fun r => (rd p.offsets o).bind fun l => some ((r : Int) - l)

/-- `get_particle_layer`, collision_cell_partition.hpp:81-88. -/
def CollPart.particleLayer (p : CollPart) (cell : Nat) (q : Int) (lin i : Nat) : Option Nat :=
  (index (p.slot cell q lin)).bind fun o =>
  (rd p.offsets o).bind fun b => rd p.entries (b + i)

/-- The loop `determine_layers`, collision_cell_partition.cpp:90-117. The state is
`k_cell_counts` and `k_layers`. -/
def detStep (p : CollPart) (width : Nat) (npart : List Nat) (par : Parent)
    (sp cc : Nat → Nat → Int) (it : Nat × Nat) (s : List Nat × List Nat) :
    Option (List Nat × List Nat) :=
  (par.layerAt it.1 it.2).bind fun layer =>
  (p.linearIndex width (sp it.1 layer)).bind fun found =>
  match found with
  | none => some s
  | some lin =>
    (loopIdx (par.es npart) it.1 it.2).bind fun linear =>
    (index (it.1 * p.maxCC * p.numSpecies + cc it.1 layer * p.numSpecies + lin)).bind fun o =>
    (fetchAdd s.1 o).bind fun r =>
    (st s.2 linear r.1).bind fun m => some (r.2, m)

/-- The loop `populate_map`, collision_cell_partition.cpp:139-161. The state is
`k_map_entries`. -/
def popStep (p : CollPart) (width : Nat) (npart : List Nat) (par : Parent)
    (sp cc : Nat → Nat → Int) (offsets layers : List Nat) (it : Nat × Nat) (m : List Nat) :
    Option (List Nat) :=
  (par.layerAt it.1 it.2).bind fun layer =>
  (p.linearIndex width (sp it.1 layer)).bind fun found =>
  match found with
  | none => some m
  | some lin =>
    (index (p.slot it.1 (cc it.1 layer) lin)).bind fun o =>
    (rd offsets o).bind fun b =>
    (loopIdx (par.es npart) it.1 it.2).bind fun linear =>
    (rd layers linear).bind fun l => st m (b + l) layer

/-- `Kernel::joint_reduce(group, ptr, ptr + n, sycl::maximum<INT>)` as called by `reduce_values`,
common.hpp:557-573: the maximum, and the smallest `INT` of an empty range. -/
def reduceMax (l : List Nat) : Int := l.foldl (fun (a : Int) (n : Nat) => max a (n : Int)) (-2 ^ 63)

/-- `CollisionCellPartition::construct`, collision_cell_partition.cpp:40-169. -/
def CollPart.construct (e : CollEnv) (p : CollPart) (npart : List Nat) (par : Parent)
    (ccCounts : List Nat) (sp cc : Nat → Nat → Int) : Option CollPart :=
  if ccCounts.length ≥ p.cellCount then
    let mine := ccCounts.take p.cellCount
    let maxCC := mine.foldl max 0
    let p := { p with ccCounts := mine, maxCC := maxCC }
    let total := maxCC * p.cellCount * p.numSpecies
    (stRange (e.fresh (total + 1 + e.over)).1 0 (List.replicate (total + 1) 0)).bind fun counts =>
    (parentVisits e.P npart par).bind fun visits =>
    (runItems (detStep p e.width npart par sp cc) (e.s0.order visits)
      (counts, (e.fresh (par.total npart + e.over)).1)).bind fun s =>
    (slice s.1 0 total).bind fun used =>
    (jointExclusiveScanBlocking e.t0 e.t1 e.t2 e.scanLocal e.units (total + 1) e.fresh s.1
      (e.fresh (total + 1 + e.over)).1).bind fun offsets =>
    (parentVisits e.P npart par).bind fun visits =>
    (runItems (popStep p e.width npart par sp cc offsets s.2) (e.s1.order visits)
      (e.fresh (par.total npart + e.over)).1).bind fun entries =>
    some { p with maxOcc := reduceMax used, offsets := offsets, entries := entries }
  else none

/-- `std::numeric_limits<int>::max()`. -/
def maxInt : Int := 2 ^ 31 - 1

/-- The number of pairs computed for one collision cell,
collision_cell_partition.cpp:200-266. -/
def pairBound (replacement aIsB : Bool) (na nb : Int) : Int :=
  if replacement then
    if aIsB then (if na ≥ 2 then maxInt else 0)
    else (if na ≥ 1 ∧ nb ≥ 1 then maxInt else 0)
  else if aIsB then Int.tdiv na 2 else min na nb

/-- `get_max_num_pairs`, collision_cell_partition.cpp:171-291. The kernels of the four cases
differ in the value they store; the number of particles of species B is only read if the species
differ. -/
def CollPart.maxNumPairs (e : CollEnv) (fresh : Fresh Int) (p : CollPart) (a b : Int)
    (replacement : Bool) : Option (List (List Int)) :=
  (p.linearId a).bind fun la => (p.linearId b).bind fun lb =>
  (runItems (fun (it : Nat × Nat) (m : List Int) =>
      (p.numParticles it.1 it.2 la).bind fun na =>
      (if a = b then some na else p.numParticles it.1 it.2 lb).bind fun nb =>
      st m (it.1 * p.maxCC + it.2) (pairBound replacement (a = b) na nb))
    (e.s3.order ((List.range p.cellCount).flatMap fun c => (List.range p.maxCC).map fun q => (c, q)))
    (fresh (p.maxCC * p.cellCount + e.over)).1).bind fun m =>
  (List.range p.cellCount).mapM fun c => (rd p.ccCounts c).bind fun n =>
    slice m (c * p.maxCC) (c * p.maxCC + n)

end NP
