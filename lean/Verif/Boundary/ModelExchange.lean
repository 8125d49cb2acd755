import Verif.Common.Kernel
import Verif.Basics.Model
import Verif.Mesh.Model
import Mathlib.Algebra.Group.Nat.Defs

/-!
# Exchange of face data between ranks: `BoundaryMeshInterface`

All ranks are modelled together, as a list with one state per rank; a collective
operation of MPI is one function on the list.  The order in which MPI reports the
neighbours of a rank in a distributed graph is not specified, so it is arbitrary here.

Simplifications.  The library stores face ids sometimes as `INT` and sometimes as `int`;
ids are integers here and are taken to fit in an `int`.  The trees used on the device to
find the index of an id are modelled by the corresponding `std::map` (the trees are the
subject of another property).  The arguments of the collectives are cached by the library
and recomputed here; the cache is emptied whenever the pattern changes
(src/boundary/boundary_mesh_interface.cpp:82-83).  A `std::map` keyed by a rank is a list
with one entry per rank in which an absent key is an empty set: the library inserts a key
only together with an element (boundary_mesh_interface.cpp:66-68, 211).
-/

set_option autoImplicit false

namespace NP

/-- The state of a `BoundaryMeshInterface` on one rank.
include/neso_particles/boundary/boundary_mesh_interface.hpp:22-113. -/
structure SurfRank where
  /-- `owned_geom_ids`. -/
  owned : List Int
  /-- `map_owned_geom_id_to_linear_index`, latest assignment first. -/
  ownedIndex : List (Int × Nat)
  /-- `map_recv_rank_to_geom_ids`: for each rank the ids it owns and this rank holds. -/
  recvIds : List (List Int)
  /-- `map_send_rank_to_geom_ids`: for each rank the ids it holds and this rank owns. -/
  sendIds : List (List Int)
  /-- `map_linear_index_to_geom_id`; its length is `geom_counter`. -/
  seqGeom : List Int
  /-- `map_geom_id_to_linear_index`, latest assignment first. -/
  geomSeq : List (Int × Nat)
  /-- `graph.destinations`. -/
  dests : List Nat
  /-- `graph.sources`. -/
  sources : List Nat
  /-- `graph.reverse_destinations`. -/
  revDests : List Nat
  /-- `graph.reverse_sources`. -/
  revSources : List Nat
  /-- `outgoing_geom_counts`. -/
  outCounts : List Nat
  /-- `incoming_geom_counts`. -/
  inCounts : List Nat
  /-- `outgoing_geom_ids`. -/
  outIds : List Int
  /-- `incoming_geom_ids`. -/
  inIds : List Int
  /-- `d_outgoing_pack_index`. -/
  packIndex : List Nat
  /-- `d_reverse_outgoing_pack_index`, a null pointer until the first extension. -/
  revPack : Option (List Nat)
  /-- `d_reverse_incoming_unpack_index`, a null pointer until the first extension. -/
  revUnpack : Option (List Nat)
  /-- `reverse_outgoing_geom_counts`. -/
  revOutCounts : List Nat
  /-- `reverse_incoming_geom_counts`. -/
  revInCounts : List Nat
  /-- `version`. -/
  version : Nat
deriving DecidableEq

/-- Value stored for a key in a `std::map`, `none` if there is none
(`std::map::at` throws, dereferencing the null result of a tree is undefined). -/
def surfFind (m : List (Int × Nat)) (key : Int) : Option Nat := m.lookup key

/-- One state for every rank computed from the states of all ranks. -/
def mapRanks {A B : Type} (w : List A) (f : Nat → A → Option B) : Option (List B) :=
  (List.range w.length).mapM fun r => (rd w r).bind (f r)

/-- The constructor, on one of `size` ranks.
src/boundary/boundary_mesh_interface.cpp:6-34. -/
def surfNew (size : Nat) (owned : List Int) : SurfRank where
  owned := owned
  ownedIndex := owned.zipIdx.foldl (fun m p => (p.1, p.2) :: m) []
  recvIds := List.replicate size []
  sendIds := List.replicate size []
  seqGeom := []
  geomSeq := []
  dests := []
  sources := []
  revDests := []
  revSources := []
  outCounts := []
  inCounts := []
  outIds := []
  inIds := []
  packIndex := []
  revPack := none
  revUnpack := none
  revOutCounts := []
  revInCounts := []
  version := 1

/-- One iteration of the loop over the pairs passed to `extend_exchange_pattern`; the flag
is `map_is_modified_t`.  A rank that is not in the communicator makes the creation of the
graph fail and is given no behaviour.
src/boundary/boundary_mesh_interface.cpp:65-76. -/
def surfRegister (p : Nat × Int) (s : SurfRank × Bool) : Option (SurfRank × Bool) :=
  (rd s.1.recvIds p.1).bind fun ids =>
    if ids.contains p.2 then some s
    else some ({ s.1 with
      recvIds := s.1.recvIds.set p.1 (intSetInsert p.2 ids)
      seqGeom := s.1.seqGeom ++ [p.2]
      geomSeq := (p.2, s.1.seqGeom.length) :: s.1.geomSeq }, true)

/-- The destinations passed to `MPI_Dist_graph_create`: the keys of
`map_recv_rank_to_geom_ids`.  src/boundary/boundary_mesh_interface.cpp:91-98. -/
def surfKeys (a : SurfRank) : List Nat :=
  (List.range a.recvIds.length).filter fun d =>
    match rd a.recvIds d with
    | some ids => !ids.isEmpty
    | none => false

/-- The ranks with an edge to rank `q` in the distributed graph. -/
def surfInEdges (w : List SurfRank) (q : Nat) : List Nat :=
  (List.range w.length).filter fun s =>
    match rd w s with
    | some a => (surfKeys a).contains q
    | none => false

/-- The orders in which MPI reports the neighbours of each rank in the graph and in the
graph with the edges reversed. -/
structure SurfOrders where
  /-- Destinations of a rank. -/
  dests : Nat → Sched
  /-- Sources of a rank. -/
  sources : Nat → Sched
  /-- Destinations of a rank in the reversed graph. -/
  revDests : Nat → Sched
  /-- Sources of a rank in the reversed graph. -/
  revSources : Nat → Sched

/-- Create the graph and its reverse and read the neighbours.
src/boundary/boundary_mesh_interface.cpp:105-145, 238-244;
src/communication/communication_utility.cpp:21-43. -/
def surfTopology (mpi : SurfOrders) (w : List SurfRank) : Option (List SurfRank) :=
  mapRanks w fun r a =>
    let out := (mpi.dests r).order (surfKeys a)
    let inn := (mpi.sources r).order (surfInEdges w r)
    some { a with
      dests := out
      sources := inn
      revDests := (mpi.revDests r).order inn
      revSources := (mpi.revSources r).order out }

/-- Counts of the ids for each destination, `MPI_Neighbor_alltoall` of the counts.
src/boundary/boundary_mesh_interface.cpp:150-182. -/
def surfOutCounts (a : SurfRank) : Option SurfRank :=
  (a.dests.mapM fun d => (rd a.recvIds d).map List.length).map fun c => { a with outCounts := c }

/-- `MPI_Neighbor_alltoall` with one value per edge: the value received from a source is
the one it has for this rank.  src/boundary/boundary_mesh_interface.cpp:181-182. -/
def surfInCounts (w : List SurfRank) (r : Nat) (a : SurfRank) : Option SurfRank :=
  (a.sources.mapM fun s => (rd w s).bind fun b => (b.dests.idxOf? r).bind (rd b.outCounts)).map
    fun c => { a with inCounts := c }

/-- The ids to send, in the order of the destinations.
src/boundary/boundary_mesh_interface.cpp:191-207. -/
def surfOutIds (a : SurfRank) : Option SurfRank :=
  (collectM (fun d => rd a.recvIds d) a.dests).bind fun ids =>
    if ids.length = a.outCounts.sum then some { a with outIds := ids } else none

/-- The arguments of `MPI_Neighbor_alltoallw` on one rank; displacements are in elements
instead of bytes. -/
structure NbrArgs (T : Type) where
  /-- Destinations in the graph of the communicator. -/
  dests : List Nat
  /-- Sources in the graph of the communicator. -/
  sources : List Nat
  sendcounts : List Nat
  sdispls : List Nat
  recvcounts : List Nat
  rdispls : List Nat
  /-- The buffer to send. -/
  sbuf : List T
  /-- The buffer to receive into. -/
  rbuf : List T

/-- The data rank `r` receives from its `j`-th source: the block the source has for the
edge to `r`.  A mismatch of the two counts is an error in MPI. -/
def nbrBlock {T : Type} (w : List (NbrArgs T)) (r : Nat) (a : NbrArgs T) (j : Nat) (buf : List T) :
    Option (List T) :=
  (rd a.sources j).bind fun s => (rd w s).bind fun b => (b.dests.idxOf? r).bind fun i =>
    (rd b.sendcounts i).bind fun n => (rd b.sdispls i).bind fun d =>
      (rd a.recvcounts j).bind fun m => (rd a.rdispls j).bind fun e =>
        if n = m then (slice b.sbuf d (d + n)).bind fun data => stRange buf e data else none

/-- `MPI_Neighbor_alltoallw` with one datatype. -/
def neighborAlltoallwArgs {T : Type} (w : List (NbrArgs T)) : Option (List (List T)) :=
  mapRanks w fun r a => forLoop 0 a.sources.length (nbrBlock w r a) a.rbuf

/-- `get_alltoallw_args`.
include/neso_particles/boundary/boundary_mesh_interface.hpp:115-153. -/
def surfArgs {T : Type} (ncomp : Nat) (a : SurfRank) (sbuf rbuf : List T) : NbrArgs T where
  dests := a.dests
  sources := a.sources
  sendcounts := a.outCounts.map (· * ncomp)
  sdispls := exclusiveFrom 0 (a.outCounts.map (· * ncomp))
  recvcounts := a.inCounts.map (· * ncomp)
  rdispls := exclusiveFrom 0 (a.inCounts.map (· * ncomp))
  sbuf := sbuf
  rbuf := rbuf

/-- `get_reverse_alltoallw_args`.
include/neso_particles/boundary/boundary_mesh_interface.hpp:155-194. -/
def surfRevArgs {T : Type} (ncomp : Nat) (a : SurfRank) (sbuf rbuf : List T) : NbrArgs T where
  dests := a.revDests
  sources := a.revSources
  sendcounts := a.revOutCounts.map (· * ncomp)
  sdispls := exclusiveFrom 0 (a.revOutCounts.map (· * ncomp))
  recvcounts := a.revInCounts.map (· * ncomp)
  rdispls := exclusiveFrom 0 (a.revInCounts.map (· * ncomp))
  sbuf := sbuf
  rbuf := rbuf

/-- `exchange_surface` on all ranks.
include/neso_particles/boundary/boundary_mesh_interface.hpp:233-249. -/
def surfExchange {T : Type} (ncomp : Nat) (w : List SurfRank) (sbufs rbufs : List (List T)) :
    Option (List (List T)) :=
  if ncomp < 1 then some rbufs
  else (mapRanks w fun r a => (rd sbufs r).bind fun s => (rd rbufs r).bind fun d =>
    some (surfArgs ncomp a s d)).bind neighborAlltoallwArgs

/-- `reverse_exchange_surface` on all ranks.  Before the first extension there is no
reversed communicator and the function returns; the model then has no neighbours.
include/neso_particles/boundary/boundary_mesh_interface.hpp:262-278. -/
def surfRevExchange {T : Type} (ncomp : Nat) (w : List SurfRank) (sbufs rbufs : List (List T)) :
    Option (List (List T)) :=
  if ncomp < 1 then some rbufs
  else (mapRanks w fun r a => (rd sbufs r).bind fun s => (rd rbufs r).bind fun d =>
    some (surfRevArgs ncomp a s d)).bind neighborAlltoallwArgs

/-- Send the ids to their owners.
src/boundary/boundary_mesh_interface.cpp:186-211. -/
def surfInIds (mem : Nat → Fresh Int) (w : List SurfRank) : Option (List SurfRank) :=
  (mapRanks w fun _ a => some a.outIds).bind fun sbufs =>
    (mapRanks w fun r a => some (mem r a.inCounts.sum).1).bind fun rbufs =>
      (surfExchange 1 w sbufs rbufs).bind fun got =>
        mapRanks w fun r a => (rd got r).bind fun ids => some { a with inIds := ids }

/-- One id of the loop that fills `map_send_rank_to_geom_ids`, from the source `src`; the
second component is `index`.  src/boundary/boundary_mesh_interface.cpp:214-221. -/
def surfSendId (a : SurfRank) (src : Nat) (s : List (List Int) × Nat) :
    Option (List (List Int) × Nat) :=
  (rd a.inIds s.2).bind fun gid => (rd s.1 src).bind fun ids =>
    (st s.1 src (intSetInsert gid ids)).bind fun m =>
      if (surfFind a.ownedIndex gid).isSome then some (m, s.2 + 1) else none

/-- Populate `map_send_rank_to_geom_ids`.
src/boundary/boundary_mesh_interface.cpp:209-222. -/
def surfSendIds (a : SurfRank) : Option SurfRank :=
  (forLoop 0 a.sources.length (fun j s => (rd a.sources j).bind fun src =>
    (rd a.inCounts j).bind fun n => forLoop 0 n (fun _ => surfSendId a src) s) (a.sendIds, 0)).bind
    fun s => some { a with sendIds := s.1 }

/-- The packing indices; an entry that was not set (`-1`) makes the assertion fail.
src/boundary/boundary_mesh_interface.cpp:224-241. -/
def surfPackIndex (a : SurfRank) : Option SurfRank :=
  (forLoop 0 a.outIds.length (fun pack m => (rd a.outIds pack).bind fun gid =>
    (surfFind a.geomSeq gid).bind fun i => st m i (some pack))
    (List.replicate a.seqGeom.length none)).bind fun m =>
      (m.mapM id).bind fun l => some { a with packIndex := l }

/-- The indices and counts for the reverse direction, and the version.  `map::at` throws
for an absent key, which is an empty set here.
src/boundary/boundary_mesh_interface.cpp:246-302. -/
def surfReverse (a : SurfRank) : Option SurfRank :=
  (collectM (fun d => (rd a.sendIds d).bind fun ids =>
      if ids.isEmpty then none else ids.mapM (surfFind a.ownedIndex)) a.revDests).bind fun pack =>
    (a.revDests.mapM fun d => (rd a.sendIds d).map List.length).bind fun outc =>
      (collectM (fun s => (rd a.recvIds s).bind fun ids =>
          if ids.isEmpty then none else ids.mapM (surfFind a.geomSeq)) a.revSources).bind fun unpack =>
        (a.revSources.mapM fun s => (rd a.recvIds s).map List.length).bind fun inc =>
          if inc.length = a.outCounts.length ∧ outc.length = a.inCounts.length then
            some { a with
              revPack := some pack
              revUnpack := some unpack
              revOutCounts := outc
              revInCounts := inc
              version := a.version + 1 }
          else none

/-- The part of `extend_exchange_pattern` run when some rank has a new pair.
src/boundary/boundary_mesh_interface.cpp:84-303. -/
def surfRebuild (mpi : SurfOrders) (mem : Nat → Fresh Int) (w : List SurfRank) :
    Option (List SurfRank) :=
  (surfTopology mpi w).bind fun w =>
    (mapRanks w fun _ a => surfOutCounts a).bind fun w =>
      (mapRanks w (surfInCounts w)).bind fun w =>
        (mapRanks w fun _ a => surfOutIds a).bind fun w =>
          (surfInIds mem w).bind fun w =>
            mapRanks w fun _ a => (surfSendIds a).bind fun a => (surfPackIndex a).bind surfReverse

/-- `extend_exchange_pattern`, called on all ranks with the pairs of each rank.
src/boundary/boundary_mesh_interface.cpp:55-309. -/
def surfExtend (mpi : SurfOrders) (mem : Nat → Fresh Int) (pairs : List (List (Nat × Int)))
    (w : List SurfRank) : Option (List SurfRank) :=
  (mapRanks w fun r a => (rd pairs r).bind fun ps => runItems surfRegister ps (a, false)).bind
    fun rs =>
      if rs.any Prod.snd then surfRebuild mpi mem (rs.map Prod.fst) else some (rs.map Prod.fst)

/-- One call of `extend_exchange_pattern`: what MPI and the allocator do, and the pairs
passed on each rank. -/
structure SurfCall where
  mpi : SurfOrders
  mem : Nat → Fresh Int
  pairs : List (List (Nat × Int))

/-- The interface constructed with the faces owned by each rank, after a history of calls
of `extend_exchange_pattern`. -/
def surfRun (owned : List (List Int)) (calls : List SurfCall) : Option (List SurfRank) :=
  runItems (fun c w => surfExtend c.mpi c.mem c.pairs w) calls
    (owned.map (surfNew owned.length))

/-- `get_num_intersection_geoms`.  src/boundary/boundary_mesh_interface.cpp:36-38. -/
def surfNumGeoms (a : SurfRank) : Nat := a.seqGeom.length

/-- `get_geom_id_from_seq_index`.  src/boundary/boundary_mesh_interface.cpp:311-314. -/
def surfGeomOf (a : SurfRank) (i : Nat) : Option Int := rd a.seqGeom i

/-- `get_seq_index_from_geom_id`.  src/boundary/boundary_mesh_interface.cpp:316-318. -/
def surfSeqOf (a : SurfRank) (gid : Int) : Option Nat := surfFind a.geomSeq gid

/-- `get_total_num_exported_geoms`; dereferences a pointer that is null until the first
extension.  src/boundary/boundary_mesh_interface.cpp:40-42. -/
def surfExported (a : SurfRank) : Option Nat := a.revPack.map List.length

/-- The work items of a launch over `n` faces and `ncomp` components, in the order in which
they are run. -/
def surfItems (sched : Sched) (n ncomp : Nat) : List (Nat × Nat) :=
  sched.order ((List.range n).flatMap fun i => (List.range ncomp).map fun c => (i, c))

/-- `exchange_from_device_pack`.
include/neso_particles/boundary/boundary_mesh_interface.hpp:351-372. -/
def surfPack {T : Type} (sched : Sched) (a : SurfRank) (ncomp : Nat) (src out : List T) :
    Option (List T) :=
  if a.seqGeom.length ≠ 0 then
    runItems (fun x out => (rd a.packIndex x.1).bind fun dst => (rd src (x.1 * ncomp + x.2)).bind
      fun v => st out (dst * ncomp + x.2) v) (surfItems sched a.seqGeom.length ncomp) out
  else some out

/-- `exchange_from_device_unpack`.
include/neso_particles/boundary/boundary_mesh_interface.hpp:374-402. -/
def surfUnpack {T : Type} [Add T] (sched : Sched) (a : SurfRank) (ncomp : Nat) (packed dst : List T) :
    Option (List T) :=
  if a.inIds.length ≠ 0 then
    runItems (fun x dst => (rd a.inIds x.1).bind fun gid => (surfFind a.ownedIndex gid).bind
      fun i => (rd packed (x.1 * ncomp + x.2)).bind fun v =>
        (rd dst (ncomp * i + x.2)).bind fun current => st dst (ncomp * i + x.2) (current + v))
      (surfItems sched a.inIds.length ncomp) dst
  else some dst

/-- `reverse_exchange_from_device_pack`.
include/neso_particles/boundary/boundary_mesh_interface.hpp:404-431. -/
def surfRevPack {T : Type} (sched : Sched) (a : SurfRank) (ncomp : Nat) (src out : List T) :
    Option (List T) :=
  if a.inIds.length ≠ 0 then
    a.revPack.bind fun pack =>
      runItems (fun x out => (rd pack x.1).bind fun i => (rd src (i * ncomp + x.2)).bind
        fun v => st out (x.1 * ncomp + x.2) v) (surfItems sched pack.length ncomp) out
  else some out

/-- `reverse_exchange_from_device_unpack`; `readable` says that the kernel can read the
memory of `packed`.
include/neso_particles/boundary/boundary_mesh_interface.hpp:433-454. -/
def surfRevUnpack {T : Type} (sched : Sched) (readable : Bool) (a : SurfRank) (ncomp : Nat)
    (packed dst : List T) : Option (List T) :=
  if a.seqGeom.length ≠ 0 then
    a.revUnpack.bind fun unpack =>
      runItems (fun x dst => (rd unpack x.1).bind fun i =>
        if readable then (rd packed (x.1 * ncomp + x.2)).bind fun v => st dst (i * ncomp + x.2) v
        else none) (surfItems sched unpack.length ncomp) dst
  else some dst

/-- What the system decides in an exchange: memory of the temporary buffers and the order
of the work items of the two kernels, on each rank. -/
structure SurfEnv (T : Type) where
  memOut : Nat → Fresh T
  memIn : Nat → Fresh T
  schedPack : Nat → Sched
  schedUnpack : Nat → Sched

/-- `exchange_from_device` on all ranks.  The copies between device and host made when MPI
is not device aware do not change the data and are not written out.
include/neso_particles/boundary/boundary_mesh_interface.hpp:467-524. -/
def surfForward {T : Type} [Add T] (env : SurfEnv T) (ncomp : Nat) (w : List SurfRank)
    (srcs dsts : List (List T)) : Option (List (List T)) :=
  (mapRanks w fun r a => (rd srcs r).bind fun src =>
    surfPack (env.schedPack r) a ncomp src (env.memOut r (a.outCounts.sum * ncomp)).1).bind
    fun sbufs =>
      (mapRanks w fun r a => some (env.memIn r (a.inCounts.sum * ncomp)).1).bind fun rbufs =>
        (surfExchange ncomp w sbufs rbufs).bind fun got =>
          mapRanks w fun r a => (rd got r).bind fun packed => (rd dsts r).bind fun dst =>
            surfUnpack (env.schedUnpack r) a ncomp packed dst

/-- `reverse_exchange_from_device` on all ranks.  The kernel that unpacks is passed the
buffer MPI received into, which is in host memory when MPI is not device aware
(`deviceAware = false`); `hostVisible` says that kernels can read host memory.
include/neso_particles/boundary/boundary_mesh_interface.hpp:536-599. -/
def surfBackward {T : Type} (env : SurfEnv T) (deviceAware hostVisible : Bool) (ncomp : Nat)
    (w : List SurfRank) (srcs dsts : List (List T)) : Option (List (List T)) :=
  (mapRanks w fun r a => (rd srcs r).bind fun src =>
    surfRevPack (env.schedPack r) a ncomp src
      (env.memOut r ((a.revPack.getD []).length * ncomp)).1).bind fun sbufs =>
    (mapRanks w fun r a => some (env.memIn r ((a.revUnpack.getD []).length * ncomp)).1).bind
      fun rbufs =>
        (surfRevExchange ncomp w sbufs rbufs).bind fun got =>
          mapRanks w fun r a => (rd got r).bind fun packed => (rd dsts r).bind fun dst =>
            surfRevUnpack (env.schedUnpack r) (deviceAware || hostVisible) a ncomp packed dst

end NP
