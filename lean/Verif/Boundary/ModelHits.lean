import Verif.Boundary.ModelWallPost
import Verif.Boundary.ModelExchange
import Verif.Algo.ModelUnseen
import Verif.Mesh.ModelFace

/-!
# Model: which faces the ranks register with the exchanges of the boundary groups

Models the constructor of `CartesianTrajectoryIntersection` and the end of `post_integration`, on
all ranks: `include/neso_particles/cartesian_mesh/cartesian_trajectory_intersection.hpp` and
`src/cartesian_mesh/cartesian_trajectory_intersection.cpp`. What happens before on each rank is
`wallPost`.
-/

set_option autoImplicit false

namespace NP

/-- Schedules and memory of one call of `UnseenValueExtractor::extract`,
include/neso_particles/algorithms/unseen_value_extractor.hpp:51-145. -/
structure SeeEnv where
  P : LoopParams
  order : Sched
  fresh : Fresh Int
  over : Nat
  garbage : Nat → TreeNode Int

/-- What one rank passes to `post_integration`,
cartesian_trajectory_intersection.hpp:78-80: the group or sub group with its particles; schedules
and memory, those of the extraction for each group. -/
structure HitRank (ndim : Nat) where
  env : WallEnv ndim
  npart : List Nat
  par : Parent
  rows : List (List WallPart)
  see : Int → SeeEnv

/-- One collective call of `post_integration`, cartesian_trajectory_intersection.hpp:78-523: what
each rank passes, and what MPI and the allocator do when the exchange of group number `j` is
extended. -/
structure HitStep (ndim : Nat) where
  ranks : List (HitRank ndim)
  mpi : Nat → SurfOrders
  mem : Nat → Nat → Fresh Int

/-- What a rank returns for its groups, in ascending order of the labels. -/
abbrev HitOut := List (Int × Selection × List (List WallRow))

/-- The members used: `map_groups_unseen_value_extractor` and the map from faces to ranks of the
mesh, for each rank; `map_groups_boundary_interface` for each group and rank.
cartesian_trajectory_intersection.hpp:41-47. -/
structure HitWorld where
  trees : List (List (BlockedTree Int))
  caches : List FaceCache
  ifaces : List (List SurfRank)

/-- The component 1 of the metadata of each particle of a group,
cartesian_trajectory_intersection.hpp:489-492. -/
def hitValues (rows : List (List WallRow)) : Option (List (List Int)) :=
  rows.mapM fun cell => cell.mapM fun r => rd r.info 1

/-- `extract`, cartesian_trajectory_intersection.hpp:487-493. The property is an `EphemeralDat`, which
has a row for each loop layer of the sub group: the loop over the sub group is the loop over all
loop layers. -/
def hitExtract (tw : Nat) (x : SeeEnv) (o : Int × Selection × List (List WallRow))
    (t : BlockedTree Int) : Option (List Int × BlockedTree Int) :=
  (hitValues o.2.2).bind fun vals =>
  unseenExtract tw ⟨x.P, x.order, x.fresh, x.over, x.garbage, o.2.1.hNpart, .whole,
    fun c k => ((rd vals c).bind fun v => rd v k).getD 0⟩ t

/-- The loop over the new faces, cartesian_trajectory_intersection.hpp:496-500. -/
def hitOwners (m : CartMesh) : List Int → FaceCache → Option (List (Nat × Int) × FaceCache)
  | [], cache => some ([], cache)
  | id :: ids, cache => (m.faceOwner cache id).bind fun o =>
      (hitOwners m ids o.2).bind fun r => some ((o.1, id) :: r.1, r.2)

/-- The loop over the groups, cartesian_trajectory_intersection.hpp:482-501: the new pairs of each
group, the trees and the map from faces to ranks. The maps have one entry for each group. -/
def hitGroups (m : CartMesh) (tw : Nat) (see : Int → SeeEnv) :
    HitOut → List (BlockedTree Int) → FaceCache →
      Option (List (List (Nat × Int)) × List (BlockedTree Int) × FaceCache)
  | [], [], cache => some ([], [], cache)
  | o :: os, t :: ts, cache => (hitExtract tw (see o.1) o t).bind fun x =>
      (hitOwners m x.1 cache).bind fun p => (hitGroups m tw see os ts p.2).bind fun r =>
      some (p.1 :: r.1, x.2 :: r.2.1, r.2.2)
  | _, _, _ => none

/-- The results of `post_integration` on a rank before the communication. -/
structure HitLocal where
  out : HitOut
  pairs : List (List (Nat × Int))
  trees : List (BlockedTree Int)
  cache : FaceCache

/-- The part of `post_integration` without communication,
cartesian_trajectory_intersection.hpp:78-504. -/
def hitLocal (m : CartMesh) (extent tol : ℚ) (groups : List (Int × List Int)) (tw : Nat)
    (x : HitRank m.mh.dims.length) (trees : List (BlockedTree Int)) (cache : FaceCache) :
    Option HitLocal :=
  (wallPost m extent tol groups x.env x.npart x.par x.rows).bind fun out =>
  (hitGroups m tw x.see out trees cache).bind fun r => some ⟨out, r.1, r.2.1, r.2.2⟩

/-- `post_integration` on all ranks, cartesian_trajectory_intersection.hpp:78-523: the new state and
what each rank returns. `new_geoms_exist` is set on a rank with a new face in some group. -/
def hitPost (m : CartMesh) (extent tol : ℚ) (groups : List (Int × List Int)) (tw : Nat)
    (s : HitStep m.mh.dims.length) (w : HitWorld) : Option (HitWorld × List HitOut) :=
  ((List.range s.ranks.length).mapM fun r => (rd s.ranks r).bind fun x => (rd w.trees r).bind fun ts =>
    (rd w.caches r).bind fun c => hitLocal m extent tol groups tw x ts c).bind fun rs =>
  (if rs.any fun r => r.pairs.any fun ps => !ps.isEmpty then
    (List.range groups.length).mapM fun j => (rd w.ifaces j).bind fun iface =>
      (rs.mapM fun r => rd r.pairs j).bind fun pairs => surfExtend (s.mpi j) (s.mem j) pairs iface
  else some w.ifaces).bind fun ifaces =>
  some (⟨rs.map (·.trees), rs.map (·.cache), ifaces⟩, rs.map (·.out))

/-- A history of calls of `post_integration`, with what each returns on each rank. -/
def hitRun (m : CartMesh) (extent tol : ℚ) (groups : List (Int × List Int)) (tw : Nat) :
    List (HitStep m.mh.dims.length) → HitWorld → Option (HitWorld × List (List HitOut))
  | [], w => some (w, [])
  | s :: ss, w => (hitPost m extent tol groups tw s w).bind fun a =>
      (hitRun m extent tol groups tw ss a.1).bind fun b => some (b.1, a.2 :: b.2)

/-- `get_all_face_cells_on_face`, src/cartesian_mesh/cartesian_h_mesh.cpp:726-734; `owned` are the
faces of the calling rank. -/
def hitSide (m : CartMesh) (owned : List Int) (f : Int) : Option (List Int) :=
  if 0 ≤ f ∧ f < m.numFaces then m.facesToGeoms owned f else none

/-- `tmp_face_cells`, cartesian_trajectory_intersection.cpp:93-100, for the group `g`. -/
def hitOwned (m : CartMesh) (g : Int × List Int) (owned : List Int) : Option (List Int) :=
  if g.1 = wallMask then none else collectM (hitSide m owned) g.2

/-- The constructor on all ranks, cartesian_trajectory_intersection.cpp:81-108, after the mesh has
been made: the state, and the owned faces of each group and rank. -/
def hitNew (m : CartMesh) (groups : List (Int × List Int)) :
    Option (HitWorld × List (List (List Int))) :=
  if m.mh.dims.length = 2 ∨ m.mh.dims.length = 3 then
    ((List.range m.comm.dims.prod).mapM fun r => m.ownedFaces (fun _ => none) r).bind fun os =>
    (groups.mapM fun g => os.mapM fun o => hitOwned m g o.2).bind fun owned =>
    some (⟨os.map fun _ => groups.map fun _ => BlockedTree.create Int, os.map Prod.fst,
      owned.map fun o => o.map (surfNew o.length)⟩, owned)
  else none

end NP
