import Verif.Petsc.ModelHalo

/-!
# Specification: cells as bytes and the mesh of halo cells
-/

set_option autoImplicit false

namespace NP.Spec

/-- A mesh that is distributed over ranks, in terms of global point ids: for each point the depth
(zero for vertices), the cone (the points of its boundary), the orientations of those, and for
vertices the coordinates. Ids that are not used are vertices without meaning. -/
structure GMesh where
  depth : Int → Nat
  cone : Int → List Int
  ornt : Int → List Int
  coords : Int → List Scal

/-- What an interpolated mesh in `ndim` dimensions satisfies: vertices and only they have an empty
cone, the cone of a point are points one dimension lower, each with an orientation, vertices have
`ndim` coordinates. -/
structure GMeshOk (g : GMesh) (ndim ks : Nat) : Prop where
  vertex : ∀ p, g.cone p = [] ↔ g.depth p = 0
  lower : ∀ p, ∀ q ∈ g.cone p, g.depth q + 1 = g.depth p
  ornts : ∀ p, (g.ornt p).length = (g.cone p).length
  dims : ∀ p, (g.coords p).length = ndim
  scalars : ∀ p, ∀ x ∈ g.coords p, x.length = ks

/-- The points of a cell: the cell, the points of its boundary, their boundary, and so on. -/
inductive InClosure (g : GMesh) (c : Int) : Int → Prop
  | self : InClosure g c c
  | cone {p q : Int} : InClosure g c p → q ∈ g.cone p → InClosure g c q

/-- A local mesh is a part of the global mesh, with distinct global ids (given by the rule that
a negative number `-i-1` stands for the point `i` of another rank). -/
structure PlexOf (dm : Plex) (g : GMesh) (glob : Nat → Int) : Prop where
  numbered : dm.numbers.length = dm.points.length
  ids : ∀ p n, dm.numbers[p]? = some n → glob p = if 0 ≤ n then n else -n - 1
  inj : ∀ p q, p < dm.points.length → q < dm.points.length → glob p = glob q → p = q
  closed : ∀ (p : Nat) (x : PlexPoint), dm.points[p]? = some x → ∀ q ∈ x.cone, q < dm.points.length
  cones : ∀ (p : Nat) (x : PlexPoint), dm.points[p]? = some x → g.cone (glob p) = x.cone.map glob
  ornts : ∀ (p : Nat) (x : PlexPoint), dm.points[p]? = some x → g.ornt (glob p) = x.ornt
  heights : ∀ (p : Nat) (x : PlexPoint), dm.points[p]? = some x → x.height + g.depth (glob p) = dm.depth
  coords : ∀ (p : Nat) (x : PlexPoint), dm.points[p]? = some x → x.height = dm.depth → g.coords (glob p) = x.coords

/-- A cell in memory is exactly the closure of a cell of the mesh. -/
structure CellIs (r : StdCell) (g : GMesh) (c : Int) : Prop where
  cones : ∀ p v, omGet r.cones p = some v ↔ InClosure g c p ∧ v = g.cone p
  ornts : ∀ p v, omGet r.ornts p = some v ↔ InClosure g c p ∧ v = g.ornt p
  vertices : ∀ p v, omGet r.vertices p = some v ↔ InClosure g c p ∧ g.depth p = 0 ∧ v = g.coords p

/-- A `std::map`: keys in increasing order. -/
def OMapOk {α : Type} (m : OMap α) : Prop := (m.map (·.1)).Pairwise (· < ·)

/-- An integer of `k` bytes. -/
def FitsIn (k : Nat) (x : Int) : Prop := -(256 ^ k : Nat) ≤ 2 * x ∧ 2 * x < (256 ^ k : Nat)

/-- A cell that can be stored: maps, with an orientation for each point of a cone, numbers that
are a `PetscInt`, scalars of the size of a `PetscScalar`. -/
structure CellStored (r : StdCell) (ki ks : Nat) : Prop where
  cones : OMapOk r.cones
  ornts : OMapOk r.ornts
  vertices : OMapOk r.vertices
  matching : ∀ p, (omGet r.ornts p).map List.length = (omGet r.cones p).map List.length
  points : ∀ e ∈ r.cones, FitsIn ki e.1 ∧ FitsIn ki e.2.length ∧ ∀ q ∈ e.2, FitsIn ki q
  orntValues : ∀ e ∈ r.ornts, ∀ q ∈ e.2, FitsIn ki q
  coords : ∀ e ∈ r.vertices, FitsIn ki e.1 ∧ FitsIn ki e.2.length ∧ ∀ x ∈ e.2, x.length = ks
  counts : FitsIn ki r.cones.length ∧ FitsIn ki r.vertices.length

/-- A packed cell was made by a rank from its part of the mesh: its global id, and where it
lives. -/
structure PackedOf (ki ks fuel : Nat) (g : GMesh) (c : PackedCell) : Prop where
  packed : ∃ (dm : Plex) (glob : Nat → Int) (cell : Nat), PlexOf dm g glob ∧ dm.depth < fuel ∧ c.localId = (cell : Int) ∧
    (∀ (p : Nat) (x : PlexPoint), dm.points[p]? = some x → FitsIn ki (glob p) ∧ FitsIn ki x.cone.length ∧
      (∀ o ∈ x.ornt, FitsIn ki o) ∧ FitsIn ki x.coords.length) ∧ FitsIn ki dm.points.length ∧
    getCopyableCell ki ks fuel dm c.rank c.type cell = some c
  memory : c.rep.length < sizeTMax

/-- The mesh of the halo is the part of the global mesh that consists of the closures of the
cells, with points numbered by `loc`. -/
structure HaloPlexIs (h : HaloPlex) (ix : HaloIndex) (g : GMesh) (ndim : Nat) (cells : List Int)
    (loc : Int → Nat) : Prop where
  /-- exactly the points of the cells have a number, from zero on, no number is used twice … -/
  numbers : ∀ l, l < ix.chartEnd ↔ ∃ c ∈ cells, ∃ p, InClosure g c p ∧ loc p = l
  inj : ∀ c ∈ cells, ∀ d ∈ cells, ∀ p q, InClosure g c p → InClosure g d q → loc p = loc q → p = q
  /-- … and the numbers go from vertices upwards (PETSc's convention for strata). -/
  strata : ∀ c ∈ cells, ∀ d ∈ cells, ∀ p q, InClosure g c p → InClosure g d q →
    g.depth p < g.depth q → loc p < loc q
  range : ∀ c ∈ cells, ∀ p, InClosure g c p → ∃ s e, ix.starts[g.depth p]? = some s ∧
    ix.ends[g.depth p]? = some e ∧ s ≤ loc p ∧ loc p < e
  table : h.cones.length = ix.chartEnd ∧ h.ornts.length = ix.chartEnd ∧ h.sizes.length = ix.chartEnd
  cones : ∀ c ∈ cells, ∀ p, InClosure g c p → h.cones[loc p]? = some ((g.cone p).map loc)
  sizes : ∀ c ∈ cells, ∀ p, InClosure g c p → h.sizes[loc p]? = some (g.cone p).length
  ornts : ∀ c ∈ cells, ∀ p, InClosure g c p → h.ornts[loc p]? = some (g.ornt p)
  coords : ∀ c ∈ cells, ∀ p, InClosure g c p → g.depth p = 0 →
    ∀ d, d < ndim → h.coords[loc p * ndim + d]? = (g.coords p)[d]?

end NP.Spec
