import Verif.Move.Model
import Verif.Mesh.ModelCart
import Verif.Group.ModelAdd

/-!
# Model: `hybrid_move` and `cell_move` on a Cartesian mesh

Composes the local mapper, the global map, the global and the local move into
`ParticleGroup::hybrid_move`, `src/particle_group.cpp`, on all ranks, and the binning into cells and
the cell move into `ParticleGroup::cell_move`. Property values are words; `dec` gives the `REAL`
value of a word.
-/

set_option autoImplicit false

namespace NP

/-- The parts of a particle which the mapping kernels read: positions and MPI ranks,
src/cartesian_mesh.cpp:192-216, src/global_mapping.cpp:11-237. Simplification: the kernels run on a
copy of these parts, which is written back by `mapStore`; they access nothing else. -/
def mapPart (dec : Int → ℚ) (ndim : Nat) (g : Group) (c k : Nat) : Option MapParticle :=
  ((List.range ndim).mapM fun d => (g.mem ⟨g.posSym, c, d, k⟩).map dec).bind fun pos =>
  (g.mem ⟨g.rankSym, c, 0, k⟩).bind fun r0 => (g.mem ⟨g.rankSym, c, 1, k⟩).bind fun r1 =>
  some ⟨pos, r0, r1⟩

/-- These parts of all particles, in the cells and layers of a dat: what the accesses
`Access::read(position_dat)` and `Access::write(mpi_rank_dat)`, src/cartesian_mesh.cpp:217, give. -/
def mapView (dec : Int → ℚ) (ndim : Nat) (g : Group) (npart : List Nat) :
    Option (List (List MapParticle)) :=
  (List.range g.ncell).mapM fun c => (rd npart c).bind fun n =>
    (List.range n).mapM fun k => mapPart dec ndim g c k

/-- The MPI ranks are written where they were read, src/cartesian_mesh.cpp:214,
src/global_mapping.cpp:248-249: the kernels write nothing else. -/
def mapStore (g : Group) (cells : List (List MapParticle)) : Option Group :=
  (runItems (fun it m => (rd2 cells it).bind fun p => (mst m ⟨g.rankSym, it.1, 0, it.2⟩ p.rank0).bind
    fun m => mst m ⟨g.rankSym, it.1, 1, it.2⟩ p.rank1) (particleItems cells) g.mem).bind fun m =>
  some { g with mem := m }

/-- Kernels which run over the particles of the dat `sym`: the first argument of the loops,
src/cartesian_mesh.cpp:191 and src/global_mapping.cpp:246. -/
def onMapView (dec : Int → ℚ) (ndim sym : Nat)
    (f : List Nat → List (List MapParticle) → Option (List (List MapParticle))) (g : Group) : Option Group :=
  (g.dat? sym).bind fun d => (mapView dec ndim g d.hNpart).bind fun cells =>
  (f d.hNpart cells).bind fun cells => mapStore g cells

/-- `CartesianHMeshLocalMapperT::map`, src/cartesian_mesh.cpp:176-227, in all cells (`cell = none`,
`map_cell` is -1) or in one cell. -/
def localMapLoop (m : CartMesh) (extent : ℚ) (lm : LocalMapper) (P : LoopParams) (order : Sched)
    (cell : Option Int) (npart : List Nat) (cells : List (List MapParticle)) :
    Option (List (List MapParticle)) :=
  (submitVisits P npart false 0 cell none).bind fun vis =>
  runItems (fun it cells => (rd2 cells it).bind fun p => (localMapStep m extent lm p).bind fun p =>
    st2 cells it p) (order.order vis) cells

/-- Orders, memory and devices of one rank in `hybrid_move`: for `reset_mpi_ranks`, the two local
maps, the three kernels of the global map, the global and the local move. -/
structure HybridEnv where
  reset : Sched
  map1 : Sched
  map2 : Sched
  look : Sched
  bin : Sched
  write : Sched
  cells : Fresh (Nat × Nat)
  indices : Fresh Int
  glob : Env
  loc : Env

/-- What the constructors of the local mapper and of the group made on each rank: the local mapper
and the pattern of the local move. -/
structure HybridWorld where
  mappers : List LocalMapper
  pats : List LocalPattern

/-- `get_owner`, with the completed map of the owners of the mesh hierarchy,
src/mesh_hierarchy.cpp:212-215. -/
def ownerOf (map : List Int) (c : Int) : Option Int := (index c).bind fun i => rd map i

/-- The constructors on all ranks: `neighbour_ranks` of the mesh, the local mapper
(src/cartesian_mesh.cpp:6-174) and the local move of the group (src/particle_group.cpp:119-123). -/
def hybridSetup (m : CartMesh) (map : List Int) (order : Sched) (arrive : Nat → Sched)
    (fresh : Nat → List Nat) : Option HybridWorld :=
  let n := m.comm.dims.prod
  ((List.range n).mapM fun r => m.neighbourRanks (ownerOf map) r).bind fun nbs =>
  ((List.range n).mapM fun r => (rd nbs r).bind fun nb => createLocalMapper m (ownerOf map) nb r).bind
    fun mappers =>
  (localSetup n order arrive fresh fun r => nbs.getD r []).bind fun pats => some ⟨mappers, pats⟩

/-- The mesh hierarchy of the mesh, whose origin is zero, src/cartesian_mesh/cartesian_h_mesh.cpp:113-119. -/
def CartMesh.geom (m : CartMesh) (extent : ℚ) : MeshGeom := ⟨m.mh, m.mh.dims.map fun _ => 0, extent⟩

/-- What `hybrid_move` does on a rank before the global move, src/particle_group.cpp:1099-1101. -/
def hybridMap (m : CartMesh) (extent : ℚ) (dec : Int → ℚ) (map : List Int) (lm : LocalMapper)
    (e : HybridEnv) (g : Group) : Option Group :=
  (onMapView dec m.ndim g.rankSym (fun _ cells => resetMpiRanks e.reset cells) g).bind fun g =>
  (onMapView dec m.ndim g.posSym (localMapLoop m extent lm e.glob.loop e.map1 none) g).bind fun g =>
  onMapView dec m.ndim g.rankSym (fun _ cells =>
    globalMapExecute e.look e.bin e.write e.cells e.indices (m.geom extent) map cells) g

/-- What it does on a rank between the moves, src/particle_group.cpp:1109. `globalMove` includes a
call of `invalidate_group_version`, which `hybrid_move` does not make at this point. -/
def hybridBetween (m : CartMesh) (extent : ℚ) (dec : Int → ℚ) (lm : LocalMapper) (e : HybridEnv)
    (g : Group) : Option Group :=
  onMapView dec m.ndim g.posSym (localMapLoop m extent lm e.loc.loop e.map2 (some 0))
    { g with version := g.version - 1 }

/-- What is not determined about the communication of `hybrid_move`: the order of the remote
increments, the orders in which messages arrive, if MPI can read device memory, and the contents
of the maps from ranks to messages before. -/
structure HybridComm where
  order : Sched
  arrive1 : Nat → Sched
  arrive2 : Nat → Sched
  arrive3 : Nat → Sched
  arrive4 : Nat → Sched
  aware : Bool
  globMap : Nat → List Nat
  locMap : Nat → List Nat

/-- `ParticleGroup::hybrid_move` on all ranks, src/particle_group.cpp:1098-1118. The first `nReal`
properties are `REAL` valued. -/
def hybridMove (m : CartMesh) (extent : ℚ) (dec : Int → ℚ) (map : List Int) (w : HybridWorld)
    (nReal : Nat) (cm : HybridComm) (e : Nat → HybridEnv) (g : Nat → Group) : Option (List Group) :=
  let n := m.comm.dims.prod
  ((List.range n).mapM fun r => (rd w.mappers r).bind fun lm =>
    hybridMap m extent dec map lm (e r) (g r)).bind fun g1 =>
  (globalMove n cm.order cm.arrive1 cm.arrive2 (fun r => (e r).glob) cm.aware nReal cm.globMap
    fun r => g1.getD r (g r)).bind fun g2 =>
  ((List.range n).mapM fun r => (rd w.mappers r).bind fun lm => (rd g2 r).bind fun x =>
    hybridBetween m extent dec lm (e r) x).bind fun g3 =>
  localMove n cm.arrive3 cm.arrive4 (fun r => (e r).loc) cm.aware nReal cm.locMap
    (fun r => w.pats.getD r default) fun r => g3.getD r (g r)

/-- `CartesianCellBin::map_cells` on rank `r`, src/cartesian_mesh/cartesian_cell_bin.cpp:7-42, 90-94,
called by `map_cells` of the local mapper, src/cartesian_mesh.cpp:229-232. The kernel of one
particle is `cellBin`. -/
def binCells (m : CartMesh) (extent : ℚ) (dec : Int → ℚ) (r : Nat) (P : LoopParams) (order : Sched)
    (g : Group) : Option Group :=
  (m.box r).bind fun b => (g.dat? g.posSym).bind fun d =>
  (submitVisits P d.hNpart false 0 none none).bind fun vis =>
  (runItems (fun it mem => ((List.range m.ndim).mapM fun j =>
      (mem ⟨g.posSym, it.1, j, it.2⟩).map dec).bind fun pos =>
    (m.cellBin extent b pos).bind fun i => mst mem ⟨g.cellSym, it.1, 0, it.2⟩ i)
    (order.order vis) g.mem).bind fun mem => some { g with mem := mem }

/-- `ParticleGroup::cell_move` on rank `r`, src/particle_group.cpp:1124-1129. -/
def binAndMove (m : CartMesh) (extent : ℚ) (dec : Int → ℚ) (r : Nat) (P : LoopParams) (order : Sched)
    (e e' : Env) (g : Group) : Option Group :=
  (binCells m extent dec r P order g).bind fun g => cellMove e e' g

/-- `cell_move` on all ranks. -/
def cellMoveAll (m : CartMesh) (extent : ℚ) (dec : Int → ℚ) (P : Nat → LoopParams)
    (order : Nat → Sched) (e e' : Nat → Env) (g : List Group) : Option (List Group) :=
  (List.range m.comm.dims.prod).mapM fun r => (rd g r).bind fun x =>
    binAndMove m extent dec r (P r) (order r) (e r) (e' r) x

end NP
