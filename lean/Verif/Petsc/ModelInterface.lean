import Verif.Petsc.ModelHalo
import Verif.Mesh.ModelBox
import Verif.Containers.ModelMHC

/-!
# Model: the halo that every rank collects for an unstructured mesh

Models `src/external_interfaces/petsc/dmplex_interface.cpp`: the mesh hierarchy laid over the mesh, the
claims of its cells, and the cells of other ranks that each rank collects. The calls are collective and
are modelled for all ranks together.

Simplifications. Numbers are exact, so the ceilings are those of the exact quotients. The subdivision
order, which is computed with logarithms, is a parameter. What PETSc gives for a cell, its bounding box
and its packed copy (`getCopyableCell`, C84), is a given `DmCell`. The claims of all ranks take effect
in any order. All ranks read the same owner of a cell (C34); the one read on rank 0 is used.
-/

set_option autoImplicit false

namespace NP

/-- The extents of the bounding box, `dmplex_interface.cpp:14-16`. -/
def dmExtents (lo hi : List ℚ) : List ℚ := List.zipWith (fun a b => b - a) lo hi

/-- `create_mesh_hierarchy`, `dmplex_interface.cpp:6-61`, for the bounding box of the whole mesh. -/
def dmHierarchy (order : Nat) (lo hi : List ℚ) : Option MeshGeom :=
  match dmExtents lo hi with
  | [] => none
  | e :: es =>
    let minExtent := es.foldl min e
    let maxExtent := es.foldl max e
    if minExtent > 0 then
      let size := if maxExtent / minExtent ≥ 2 then minExtent else maxExtent
      (MeshHierarchy.create ((e :: es).map fun x => ⌈x / size⌉) order).map fun mh => ⟨mh, lo, size⟩
    else none

/-- A cell of a rank: `get_cell_bounding_box` and `get_copyable_cell`, `dmplex_helper.cpp`. -/
structure DmCell where
  lower : List ℚ
  upper : List ℚ
  packed : PackedCell

/-- The loop over the cells of a rank, `dmplex_interface.cpp:98-103`. -/
def dmLocalClaims (g : MeshGeom) (cells : List DmCell) : Option LocalClaims :=
  claimElements g (cells.zipIdx.map fun ci => ((ci.2 : Int), ci.1.lower, ci.1.upper)) LocalClaims.empty

/-- The calls of `claim_cell` of a rank, `dmplex_interface.cpp:107-109`. -/
def dmRankClaims (rank : Nat) (s : LocalClaims) : Option (List Claim) :=
  s.cells.mapM fun c => (s.weights c).map fun w => ⟨rank, c, w.1⟩

/-- `mh_element_map` as it is iterated: the keys, which are cells of the hierarchy, ascend. -/
def dmGeomMap (g : MeshGeom) (s : LocalClaims) : List (Int × List Int) :=
  (intRange 0 g.mh.ncellsGlobal).filterMap fun c => (s.geoms c).map fun es => (c, es)

/-- `map_cell_dmplex` of a rank, `dmplex_interface.cpp:117-129`. -/
def dmPackedMap (g : MeshGeom) (cells : List DmCell) (s : LocalClaims) :
    Option (List (Int × List PackedCell)) :=
  (dmGeomMap g s).mapM fun ce =>
    (ce.2.mapM fun e => (index e).bind fun i => (rd cells i).map fun x => x.packed).map fun ps =>
      (ce.1, ps)

/-- `owned_mh_cells` and `unowned_mh_cells`, `get_unowned_cells`, `dmplex_interface.cpp:63-90`: the
stacks are emptied from the top. -/
def dmOwned (rank : Nat) (owner : Int → Int) (s : LocalClaims) : List Int × List Int :=
  ((s.cells.filter fun c => owner c == rank).reverse, (s.cells.filter fun c => owner c != rank).reverse)

/-- `stencil_width`, `dmplex_interface.cpp:138`. -/
def dmStencil : Int := 1

/-- `cells_to_gather` of a rank, `dmplex_interface.cpp:135-142`. -/
def dmToGather (g : MeshGeom) (rank : Nat) (owner : Int → Int) (s : LocalClaims) : Option (List Int) :=
  let owned := dmOwned rank owner s
  neighbourCells g.mh owned.1 owned.2 dmStencil false

/-- What the constructor leaves: the owner of each cell of the mesh hierarchy, and
`serialised_halo_cells` of each rank. -/
structure DmState where
  owner : Int → Int
  halo : List (List PackedCell)

/-- `claim_mesh_hierarchy_cells` and `create_halos` on all ranks, `dmplex_interface.cpp:92-163`; `ki` is
the size of a `PetscInt`. -/
def dmSetup (s0 : Nat → Sched) (s1 sc : Sched) (layout : NodeLayout) (w : ClaimState) (ki : Nat)
    (db : CellBuffer) (dp : PackedCell) (n : Nat) (g : MeshGeom) (cells : Nat → List DmCell) :
    Option DmState :=
  ((List.range n).mapM fun r => dmLocalClaims g (cells r)).bind fun locals =>
  ((List.range n).mapM fun r => (rd locals r).bind (dmRankClaims r)).bind fun claims =>
  (claimEpoch s0 s1 layout g.mh.ncellsGlobal.toNat (sc.order claims.flatten) w).bind fun w =>
  let owner := fun c => (getOwner layout w 0 c).getD (-1)
  ((List.range n).mapM fun r => (rd locals r).bind (dmPackedMap g (cells r))).bind fun data =>
  (mhcCreate (packedCellSerial ki) db n owner fun r => (data[r]?).getD []).bind fun c0 =>
  ((List.range n).mapM fun r => (rd locals r).bind (dmToGather g r owner)).bind fun toGather =>
  (mhcGather db n owner c0 fun r => (toGather[r]?).getD []).bind fun c1 =>
  ((List.range n).mapM fun r => (rd toGather r).bind fun cs =>
    (cs.mapM fun c => (c1 r).get (packedCellSerial ki) dp c).map fun got =>
      collectHalo r got).map fun halo => ⟨owner, halo⟩

/-- `neighbour_ranks`, `dmplex_interface.cpp:165-182`, from the map of the halo. -/
def dmNeighbours (size : Nat) (lids : LidMap) : Option (List Int) :=
  runItems (fun (x : Int × (Int × Int × Int)) out =>
    if x.2.1 > -1 then if x.2.1 < size then some (setInsert out x.2.1) else none else some out) lids []

end NP
