import Verif.Mesh.SpecCart
import Verif.Move.Spec
import Verif.Hybrid.Model

/-! # What the properties of `hybrid_move` and `cell_move` say -/

set_option autoImplicit false

namespace NP.Spec

/-- The position of a particle. -/
def position (dec : Int → ℚ) (ndim : Nat) (g : Group) (c k : Nat) : Option (List ℚ) :=
  (List.range ndim).mapM fun d => (g.mem ⟨g.posSym, c, d, k⟩).map dec

/-- The values of a particle, except for those that `p` selects by property and component. -/
def valuesBut (p : Nat × Nat → Bool) (g : Group) (c k : Nat) : List (Option Int) :=
  ((flatComps g.dats).filter fun sj => !p sj).map fun sj => g.mem ⟨sj.1, c, sj.2, k⟩

/-- The first two components of the MPI rank property. -/
def isRank (g : Group) (sj : Nat × Nat) : Bool := sj.1 == g.rankSym && decide (sj.2 < 2)

/-- The first component of the cell id property. -/
def isCellId (g : Group) (sj : Nat × Nat) : Bool := sj.1 == g.cellSym && sj.2 == 0

/-- The first two components of the MPI rank property and the first one of the cell id. -/
def isRankOrCellId (g : Group) (sj : Nat × Nat) : Bool := isRank g sj || isCellId g sj

/-- All particles of a group without the values that `p` selects. -/
def allBut (p : Group → Nat × Nat → Bool) (g : Group) : List (List (Option Int)) :=
  (particlesOf g).map fun ck => valuesBut (p g) g ck.1 ck.2

/-- The position is in the domain of the mesh, ends included. -/
def InsideMesh (m : CartMesh) (extent : ℚ) (p : List ℚ) : Prop :=
  ∀ (d : Nat) (n : Int) (x : ℚ), m.mh.dims[d]? = some n → p[d]? = some x → 0 ≤ x ∧ x ≤ n * extent

/-- The map of owners is complete: it has the owner of every cell of the mesh. -/
structure OwnerMap (m : CartMesh) (map : List Int) : Prop where
  len : (map.length : Int) = m.mh.ncellsGlobal
  owner : ∀ t r c, IsMeshCell m t → Owns m r t → r < m.comm.dims.prod → IsCellAt m.mh t c →
    map[c.toNat]? = some (r : Int)

/-- The devices that `hybrid_move` uses are usable. -/
structure HybridEnvOk (e : HybridEnv) : Prop where
  glob : EnvOk e.glob
  loc : EnvOk e.loc

/-- What `hybrid_move` needs on one rank: a consistent group with distinct properties for
positions, MPI ranks (at least two components) and cell ids, whose particles are in the domain and
have non-negative cell ids. -/
structure HybridGroupOk (m : CartMesh) (extent : ℚ) (dec : Int → ℚ) (g : Group) : Prop where
  consistent : Consistent g
  cells : 0 < g.ncell
  pos : ∃ d ∈ g.dats, d.sym = g.posSym ∧ m.mh.dims.length ≤ d.ncomp
  rank : ∃ d ∈ g.dats, d.sym = g.rankSym ∧ 2 ≤ d.ncomp
  rank_pos : g.rankSym ≠ g.posSym
  rank_cell : g.rankSym ≠ g.cellSym
  cell_pos : g.cellSym ≠ g.posSym
  ids : ∀ c k, c < g.ncell → k < count g c → ∃ v, cellId g c k = some v ∧ 0 ≤ v
  inside : ∀ c k, c < g.ncell → k < count g c → ∃ p, position dec m.mh.dims.length g c k = some p ∧
    InsideMesh m extent p

/-- The groups on all ranks: as above, with the same properties and fewer than `2 ^ 31` particles
altogether. -/
structure HybridOk (m : CartMesh) (extent : ℚ) (dec : Int → ℚ) (g : Nat → Group) : Prop where
  group : ∀ r, r < m.comm.dims.prod → HybridGroupOk m extent dec (g r)
  comps : ∀ r s, r < m.comm.dims.prod → s < m.comm.dims.prod →
    flatComps (g r).dats = flatComps (g s).dats
  names : ∀ r s, r < m.comm.dims.prod → s < m.comm.dims.prod →
    (g r).posSym = (g s).posSym ∧ (g r).rankSym = (g s).rankSym ∧ (g r).cellSym = (g s).cellSym
  small : ((List.range m.comm.dims.prod).map fun r => (g r).hNpart.sum).sum < 2 ^ 31

/-- Every particle of the group on rank `r` is in a cell of the mesh which rank `r` owns. -/
def OnOwner (m : CartMesh) (extent : ℚ) (dec : Int → ℚ) (r : Nat) (g : Group) : Prop :=
  ∀ c k, c < g.ncell → k < count g c → ∃ p t, position dec m.mh.dims.length g c k = some p ∧
    NearestCell m extent t p ∧ Owns m r t

/-- Every particle of the group on rank `r` is in the row of the cell that contains it: cell `c` is
number `c` of the cells of the mesh that rank `r` owns. -/
def InOwnCell (m : CartMesh) (extent : ℚ) (dec : Int → ℚ) (r : Nat) (g : Group) : Prop :=
  ∃ b cells, m.box r = some b ∧ getOwnedCells b = some cells ∧
  ∀ c k, c < g.ncell → k < count g c → ∃ p t, position dec m.mh.dims.length g c k = some p ∧
    NearestCell m extent t p ∧ cells[c]? = some (pad3 t)

/-- The group on rank `r` has one cell for each cell of the mesh that rank `r` owns. -/
def HasOwnedCells (m : CartMesh) (r : Nat) (g : Group) : Prop :=
  ∃ b cells, m.box r = some b ∧ getOwnedCells b = some cells ∧ g.ncell = cells.length

end NP.Spec
