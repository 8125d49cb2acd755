import Verif.Petsc.ModelMapper
import Verif.Mesh.ModelBox
import Verif.Containers.ModelTree
import Verif.Loop.Model

/-!
# Model: trajectories that cross the boundary of a two dimensional unstructured mesh

Models `BoundaryInteraction2D` and `BoundaryInteractionCommon`
(`external_interfaces/petsc/boundary_interaction/boundary_interaction_2d.hpp`,
`boundary_interaction_common.hpp`, `boundary_interaction_2d.cpp`,
`boundary_interaction_common.cpp`) and `line_segment_intersection_2d`
(`device_functions.hpp:141-228`).

Simplifications. Numbers are rational and arithmetic is exact, except that the inverse square root
used for normals is an arbitrary function. Integers do not overflow, except for the widths of boxes
without particles. The two shared arrays of facet data are one list of records, as are the two
arrays of results. The order of the particles in a returned sub group is not modelled.
Exceptions, failed assertions, null pointers and accesses outside of an array are `none`.
-/

set_option autoImplicit false

namespace NP

/-! ## Intersection of two segments -/

/-- Division; by zero it gives no number. -/
def qdiv (a b : ℚ) : Option ℚ := if b = 0 then none else some (a / b)

/-- `line_segment_intersection_2d_lambda`, `device_functions.hpp:141-157`. -/
def lineLambda (xa ya xb yb x0 y0 x1 y1 : ℚ) : Option (ℚ × ℚ) :=
  (qdiv 1 (x1 - x0)).bind fun inv =>
  (qdiv (-ya + y0 + (xa - x0) * (y1 - y0) * inv) (yb - ya - (xb - xa) * (y1 - y0) * inv)).bind
    fun l0 => some (l0, (xa - x0 + l0 * (xb - xa)) * inv)

/-- `line_segment_intersection_2d`, `device_functions.hpp:179-228`: the intersection point, or none
if it returns false. -/
def segIntersect (xa ya xb yb x0 y0 x1 y1 tol : ℚ) : Option (Option (ℚ × ℚ)) :=
  if (xb - xa) * (y1 - y0) - (yb - ya) * (x1 - x0) ≠ 0 then
    (if |x1 - x0| > |xb - xa| then (lineLambda xa ya xb yb x0 y0 x1 y1).map (·.1)
      else (lineLambda x0 y0 x1 y1 xa ya xb yb).map (·.2)).bind fun l =>
    let xi := xa + l * (xb - xa)
    let yi := ya + l * (yb - ya)
    let xmin := if x0 < x1 then x0 else x1
    let xmax := if x0 < x1 then x1 else x0
    let ymin := if y0 < y1 then y0 else y1
    let ymax := if y0 < y1 then y1 else y0
    if (0 - tol ≤ l ∧ l ≤ 1 + tol) ∧
        (xmin - tol ≤ xi ∧ xi ≤ xmax + tol ∧ ymin - tol ≤ yi ∧ yi ≤ ymax + tol) then
      some (some (xi, yi))
    else some none
  else some none

/-! ## The constructor -/

/-- One boundary edge: `ncomp_real` reals and `ncomp_int` integers,
`boundary_interaction_2d.hpp:66-72`. -/
structure Facet where
  x0 : ℚ
  y0 : ℚ
  x1 : ℚ
  y1 : ℚ
  n0 : ℚ
  n1 : ℚ
  label : Int
  edge : Int
  deriving DecidableEq

/-- A point of a face set: what `get_generic_vertices` and `get_point_global_index` return for
it. -/
structure FacePoint where
  coords : List (List ℚ)
  gid : Int

/-- `map_label_to_groups`, `boundary_interaction_common.cpp:37-42`. -/
def labelGroups (groups : OMap (List Int)) : Option (OMap Int) :=
  groups.foldlM (fun m g =>
    if 0 ≤ g.1 then some (g.2.foldl (fun m l => omPut m l g.1) m) else none) []

/-- `get_labels`, `boundary_interaction_common.hpp:37-57`. -/
def getLabels (groups : OMap (List Int)) : Option (List Int) :=
  groups.foldlM (fun labels g =>
    (g.2.foldl (fun s l => intSetInsert l s) []).foldlM (fun labels l =>
      if labels.contains l then none else some (intSetInsert l labels)) labels) []

/-- The body of the loop over the facets of a rank, `boundary_interaction_2d.cpp:158-198`.
`invSqrt` is `1.0 / std::sqrt`. -/
def facetOf (invSqrt : ℚ → ℚ) (label : Int) (p : FacePoint) : Option Facet :=
  match p.coords with
  | [[x0, y0], [x1, y1]] =>
    let dx := x1 - x0
    let dy := y1 - y0
    let n0t := -dy
    let n1t := dx
    let l := invSqrt (n0t * n0t + n1t * n1t)
    some ⟨x0, y0, x1, y1, n0t * l, n1t * l, label, p.gid⟩
  | _ => none

/-- The facets a rank contributes, `boundary_interaction_2d.cpp:131-198`. -/
def localFacets (invSqrt : ℚ → ℚ) (labels : List Int) (faceSets : OMap (List FacePoint)) :
    Option (List Facet) :=
  collectM (fun item => if labels.contains item.1 then item.2.mapM (facetOf invSqrt item.1)
    else some []) faceSets

/-- The facets of all ranks: those of the ranks of each node are gathered on its first rank, then
those of all nodes. `boundary_interaction_2d.cpp:203-256`. -/
def gatherFacets (invSqrt : ℚ → ℚ) (labels : List Int) (nodes : List (List (OMap (List FacePoint)))) :
    Option (List Facet) :=
  collectM (fun node => collectM (localFacets invSqrt labels) node) nodes

/-- `padding`, `boundary_interaction_2d.hpp:74`. -/
def edgePadding : ℚ := 1 / 100000000

/-- `get_bounding_box`, `boundary_interaction_2d.cpp:8-29`. -/
def facetBox (big : ℚ) (f : Facet) : BBox :=
  [(f.x0, f.y0), (f.x1, f.y1)].foldl (fun bb v => bb.expand
    ([v.1 - edgePadding, v.2 - edgePadding, 0], [v.1 + edgePadding, v.2 + edgePadding, 0]))
    (([big, big, big], [-big, -big, -big]) : BBox)

/-- `map_mh_index_to_index`, `boundary_interaction_2d.cpp:258-268`. -/
def cellFacetMap (big : ℚ) (g : MeshGeom) (facets : List Facet) : Option (OMap (List Int)) :=
  facets.zipIdx.foldlM (fun m f =>
    (boundingBoxMap g (facetBox big f.1).1 (facetBox big f.1).2).map fun cells =>
      cells.foldl (fun m c => omPut m c.1 (intSetInsert (f.2 : Int) ((omGet m c.1).getD []))) m) []

/-- What `collect_cells` puts on the device for an edge: coordinates, group and edge index. -/
structure DevEdge where
  x0 : ℚ
  y0 : ℚ
  x1 : ℚ
  y1 : ℚ
  group : Int
  edge : Int

/-- A `BoundaryInteraction2D` on one rank. -/
structure Edges2D where
  geom : MeshGeom
  /-- `mesh->get_cell_count()`. -/
  cellCount : Nat
  groups : OMap (List Int)
  labelGroup : OMap Int
  tol : ℚ
  facets : List Facet
  /-- `map_mh_index_to_index`. -/
  cellFacets : OMap (List Int)
  /-- `collected_mh_cells`. -/
  collected : List Int
  /-- `pushed_edge_data`. -/
  pushed : List Int
  /-- `d_map_edge_discovery`. -/
  discovery : BlockedTree (List DevEdge)
  /-- `d_map_edge_normals`. -/
  normals : BlockedTree (ℚ × ℚ)

/-- The constructor, `boundary_interaction_2d.cpp:117-277`, `boundary_interaction_common.cpp:30-79`.
`nodes` has the face sets of the ranks of each node. -/
def edges2DNew (invSqrt : ℚ → ℚ) (big : ℚ) (geom : MeshGeom) (cellCount : Nat)
    (groups : OMap (List Int)) (tol : ℚ) (nodes : List (List (OMap (List FacePoint)))) :
    Option Edges2D :=
  (labelGroups groups).bind fun labelGroup => (getLabels groups).bind fun labels =>
  (gatherFacets invSqrt labels nodes).bind fun facets =>
  (cellFacetMap big geom facets).map fun cellFacets =>
  { geom := geom, cellCount := cellCount, groups := groups, labelGroup := labelGroup, tol := tol,
    facets := facets, cellFacets := cellFacets, collected := [], pushed := [],
    discovery := BlockedTree.create _, normals := BlockedTree.create _ }

/-! ## Particles -/

/-- The components of a particle that take part. -/
structure EdgeParticle where
  pos : List ℚ
  prev : List ℚ
  deriving DecidableEq

/-- What depends on the run: orders of particles, memory. -/
structure EdgeEnv where
  s0 : Sched
  s1 : Sched
  nodeD : Nat → TreeNode (List DevEdge)
  nodeN : Nat → TreeNode (ℚ × ℚ)
  /-- `k_real`. -/
  reals : Fresh (ℚ × ℚ × ℚ × ℚ)

/-- `pre_integration`, `boundary_interaction_common.cpp:81-123`. `sel` are the particles. -/
def edgePre (s : Sched) (ndim : Nat) (sel : List (Nat × Nat)) (cells : List (List EdgeParticle)) :
    Option (List (List EdgeParticle)) :=
  runItems (fun it cells => (rd2 cells it).bind fun p =>
    (forLoop 0 ndim (fun d pp => (rd p.pos d).bind fun v => st pp d v) p.prev).bind fun pp =>
    st2 cells it { p with prev := pp }) (s.order sel) cells

/-! ## `find_cells` -/

/-- The update of the smallest and largest indices with a position,
`boundary_interaction_common.hpp:188-210`. -/
def cdcUpdate (g : MeshGeom) (p : List ℚ) (row : List (Int × Int)) : Option (List (Int × Int)) :=
  (g.mapToCartNoTrunc p).bind fun cart =>
  forAllM (fun d => (rd row d).bind fun b => (rd cart d).map fun c => (min b.1 c, max b.2 c))
    (List.range g.mh.ndim)

/-- The first loop, `boundary_interaction_common.hpp:174-215`: for each cell and dimension the
smallest and largest index. -/
def cdcLoop (s : Sched) (g : MeshGeom) (cellCount : Nat) (cells : List (List EdgeParticle))
    (sel : List (Nat × Nat)) : Option (List (List (Int × Int))) :=
  runItems (fun it cdc => (rd2 cells it).bind fun p => (rd cdc it.1).bind fun row =>
    (cdcUpdate g p.pos row).bind fun row => (cdcUpdate g p.prev row).bind fun row =>
    st cdc it.1 row) (s.order sel)
    (List.replicate cellCount (List.replicate g.mh.ndim (2147483647, -2147483648)))

/-- `k_cell_bounds`, `boundary_interaction_common.cpp:68-73`. -/
def cellBounds (g : MeshGeom) : List Int := g.mh.dims.map fun n => n * g.mh.ncellsDimFine

/-- Truncation to the grid, `boundary_interaction_common.hpp:235-242`. -/
def cdcTrunc (g : MeshGeom) (row : List (Int × Int)) : Option (List (Int × Int)) :=
  forAllM (fun d => (rd row d).bind fun b => (rd (cellBounds g) d).map fun n =>
    (max 0 b.1, min (n - 1) b.2)) (List.range g.mh.ndim)

/-- The value of a sum of `int`s that may overflow. -/
def wrap32 (x : Int) : Int := (x + 2147483648) % 4294967296 - 2147483648

/-- `volume`, `boundary_interaction_common.hpp:231-246`. For a cell without particles the width
overflows. -/
def boxCount (row : List (Int × Int)) : Int :=
  row.foldl (fun v b => v * wrap32 (b.2 - b.1 + 1)) 1

/-- The three nested loops over a box of cells; the first dimension is the innermost loop.
`boundary_interaction_common.hpp:124-143, 284-306`. -/
def boxTuples (x y z : Int × Int) : List (List Int) :=
  (intRange z.1 z.2).flatMap fun c2 => (intRange y.1 y.2).flatMap fun c1 =>
    (intRange x.1 x.2).map fun c0 => [c0, c1, c2]

/-- The start and end of the loops of a dimension in the second kernel,
`boundary_interaction_common.hpp:273-282`. -/
def boxEnds (row : List (Int × Int)) (d : Nat) : Int × Int :=
  match row[d]? with
  | some b => (b.1, b.2 + 1)
  | none => (0, 1)

/-- The entries of `k_mh_cells` written for one cell, `boundary_interaction_common.hpp:267-312`;
entries of different cells are different. -/
def cellColumn (g : MeshGeom) (maxBox : Nat) (row : List (Int × Int)) : Option (List Int) :=
  ((boxTuples (boxEnds row 0) (boxEnds row 1) (boxEnds row 2)).mapM fun t =>
    boxCellIndex g.mh (t.take g.mh.ndim)).bind fun l =>
  if l.length ≤ maxBox then some (l ++ List.replicate (maxBox - l.length) (-1)) else none

/-- `find_cells`, `boundary_interaction_common.hpp:167-342`: `required_mh_cells`. -/
def Edges2D.findCells (e : Edges2D) (env : EdgeEnv) (cells : List (List EdgeParticle))
    (sel : List (Nat × Nat)) : Option (List Int) :=
  (cdcLoop env.s0 e.geom e.cellCount cells sel).bind fun cdc =>
  (forAllM (cdcTrunc e.geom) cdc).bind fun rows =>
  let maxBox := (rows.map boxCount).foldl max 0
  (collectM (cellColumn e.geom maxBox.toNat) rows).map fun buf =>
    ((buf.filter fun c => c > -1).foldl (fun s c => intSetInsert c s) []).filter fun c =>
      !e.collected.contains c

/-! ## `collect_cells` -/

/-- The body of the loop over the edges of a cell, `boundary_interaction_2d.cpp:41-66`. -/
def collectEdge (env : EdgeEnv) (s : Edges2D × List DevEdge) (ix : Int) :
    Option (Edges2D × List DevEdge) :=
  (index ix).bind fun k => (rd s.1.facets k).bind fun f =>
  (omGet s.1.labelGroup f.label).bind fun group =>
  let edges := s.2 ++ [⟨f.x0, f.y0, f.x1, f.y1, group, f.edge⟩]
  if s.1.pushed.contains f.edge then some (s.1, edges)
  else (s.1.normals.add 8 (env.nodeN s.1.normals.heap.length) f.edge (f.n0, f.n1)).map fun t =>
    ({ s.1 with normals := t, pushed := intSetInsert f.edge s.1.pushed }, edges)

/-- The body of the loop over the cells, `boundary_interaction_2d.cpp:32-84`. -/
def collectCell (env : EdgeEnv) (e : Edges2D) (cell : Int) : Option Edges2D :=
  Option.map (fun e : Edges2D => { e with collected := intSetInsert cell e.collected })
  (match omGet e.cellFacets cell with
    | some ixs => (ixs.foldlM (collectEdge env) (e, [])).bind fun s =>
      (s.1.discovery.add 8 (env.nodeD s.1.discovery.heap.length) cell s.2).map fun t =>
        { s.1 with discovery := t }
    | none => some e)

/-- `collect_cells`, `boundary_interaction_2d.cpp:31-84`. -/
def Edges2D.collectCells (env : EdgeEnv) (e : Edges2D) (required : List Int) : Option Edges2D :=
  required.foldlM (collectCell env) e

/-! ## Finding intersections -/

/-- `current_distance` and the arrays `k_intersection_point`, `k_intersection_normal` and
`k_intersection_metadata` of a particle. -/
structure HitState where
  dist : ℚ
  px : ℚ
  py : ℚ
  nx : ℚ
  ny : ℚ
  flag : Int
  group : Int
  edge : Int

/-- `get_location` followed by reads of the location: the flag and the value, or none if there is
no node. `containers/blocked_binary_tree.hpp:126-147`. -/
def nodeRead {V : Type} (heap : List (TreeNode V)) (root : Nat) (width key : Int) :
    Option (Option (Bool × V)) :=
  (getLocation heap root (getNodeKey width key)).bind fun loc =>
    match loc with
    | none => some none
    | some p => (rd heap p).bind fun n => (index (getLeafKey width key)).bind fun leaf =>
        (rd n.exist leaf).bind fun ex => (rd n.data leaf).map fun v => some (ex, v)

/-- The body of the loop over the edges in `find`, `boundary_interaction_2d.hpp:128-154`. The flag
is `new_intersection_found`. -/
def findEdge (tol : ℚ) (a b : ℚ × ℚ) (s : HitState × Bool) (e : DevEdge) : Option (HitState × Bool) :=
  (segIntersect e.x0 e.y0 e.x1 e.y1 a.1 a.2 b.1 b.2 tol).map fun r =>
    match r with
    | some p =>
      let xd := a.1 - p.1
      let yd := a.2 - p.2
      let d2 := xd * xd + yd * yd
      if d2 < s.1.dist then
        ({ s.1 with px := p.1, py := p.2, flag := 1, group := e.group, edge := e.edge, dist := d2 }, true)
      else s
    | none => s

/-- `TrajectoryIntersect2D::find`, `boundary_interaction_2d.hpp:109-166`, where `root` is the root of
the tree of edges. -/
def Edges2D.find (e : Edges2D) (root : Nat) (cell : Int) (a b : ℚ × ℚ) (s : HitState) :
    Option HitState :=
  (nodeRead e.discovery.heap root 8 cell).bind fun r =>
  match r with
  | none => some s
  | some (false, _) => some s
  | some (true, edges) =>
    (edges.foldlM (findEdge e.tol a b) (s, false)).bind fun q =>
    if q.2 then
      e.normals.root.bind fun rn => (nodeRead e.normals.heap rn 8 q.1.edge).map fun n =>
        match n with
        | some (_, v) => { q.1 with nx := v.1, ny := v.2 }
        | none => q.1
    else some q.1

/-- The start and end of the loop of a dimension below `k_ndim`, from the indices of the two
positions, `boundary_interaction_common.hpp:88-104`. -/
def trajEnds (bound i j : Int) : Int × Int := (max (min i j) 0, min (bound - 1) (max i j) + 1)

/-- The start and end of the loops in dimension `d`; `k_ndim` is the number of components of the
position, the indices are set for the dimensions of the mesh only, and `k_cell_bounds` has three
entries. `boundary_interaction_common.hpp:72-111`. -/
def loopEnds (g : MeshGeom) (ncomp : Nat) (ci cj : List Int) (d : Nat) : Int × Int :=
  if d < ncomp then trajEnds ((cellBounds g)[d]?.getD 0) (ci[d]?.getD 0) (cj[d]?.getD 1) else (0, 1)

/-- The body of the loop over particles up to the loop over cells,
`boundary_interaction_common.hpp:69-147`. `ncomp` is the number of components of the position,
which is the number of components read of both. -/
def Edges2D.findParticle (e : Edges2D) (big : ℚ) (root ncomp : Nat) (p : EdgeParticle) :
    Option HitState :=
  (forAllM (rd p.prev) (List.range ncomp)).bind fun prev =>
  (forAllM (rd p.pos) (List.range ncomp)).bind fun curr =>
  (e.geom.mapToCartNoTrunc prev).bind fun ci => (e.geom.mapToCartNoTrunc curr).bind fun cj =>
  (rd prev 0).bind fun a0 => (rd prev 1).bind fun a1 =>
  (rd curr 0).bind fun b0 => (rd curr 1).bind fun b1 =>
  let ends := loopEnds e.geom ncomp ci cj
  (boxTuples (ends 0) (ends 1) (ends 2)).foldlM (fun s t =>
    (boxCellIndex e.geom.mh (t.take e.geom.mh.ndim)).bind fun c => e.find root c (a0, a1) (b0, b1) s)
    ⟨big, 0, 0, 0, 0, 0, 0, 0⟩

/-- The results of the particles: `d_int` and `d_real`. -/
structure HitBuf where
  ints : List (Int × Int × Int)
  reals : List (ℚ × ℚ × ℚ × ℚ)

/-- The number of particles in each cell. -/
def edgeNpart (cells : List (List EdgeParticle)) : List Nat := cells.map List.length

/-- `find_intersections_inner`, `boundary_interaction_common.hpp:59-165`. -/
def Edges2D.findIntersections (e : Edges2D) (env : EdgeEnv) (big : ℚ) (ncomp : Nat)
    (cells : List (List EdgeParticle)) (sel : List (Nat × Nat)) (buf : HitBuf) : Option HitBuf :=
  match e.discovery.root with
  | none => some buf
  | some root => runItems (fun it buf =>
      (rd2 cells it).bind fun p => (e.findParticle big root ncomp p).bind fun h =>
      if h.flag ≠ 0 then
        (localLinearIndex (edgeNpart cells) it.1 it.2).bind fun ix =>
        (st buf.ints ix (1, h.group, h.edge)).bind fun ints =>
        (st buf.reals ix (h.px, h.py, h.nx, h.ny)).map fun reals => ⟨ints, reals⟩
      else some buf) (env.s1.order sel) buf

/-- The standard data of a particle that hits the boundary: `intersection_point`,
`intersection_normal` and `intersection_metadata`. -/
structure HitData where
  point : ℚ × ℚ
  normal : ℚ × ℚ
  group : Int
  edge : Int
  deriving DecidableEq

/-- The particles that satisfy a condition on their entry of `k_int`. -/
def selectHits (npart : List Nat) (ints : List (Int × Int × Int)) (cond : Int × Int × Int → Bool)
    (sel : List (Nat × Nat)) : Option (List (Nat × Nat)) :=
  collectM (fun it => (localLinearIndex npart it.1 it.2).bind fun ix => (rd ints ix).map fun x =>
    if cond x then [it] else []) sel

/-- `lambda_make_sub_group` for one group: the particles and their data,
`boundary_interaction_2d.hpp:205-240`. -/
def hitGroup (npart : List Nat) (buf : HitBuf) (group : Int) (sel : List (Nat × Nat)) :
    Option (List ((Nat × Nat) × HitData)) :=
  (selectHits npart buf.ints (fun x => decide (x.1 ≠ 0) && decide (x.2.1 = group)) sel).bind fun l =>
  l.mapM fun it => (localLinearIndex npart it.1 it.2).bind fun ix =>
    (rd buf.reals ix).bind fun r => (rd buf.ints ix).map fun x =>
    (it, { point := (r.1, r.2.1), normal := (r.2.2.1, r.2.2.2), group := group, edge := x.2.2 })

/-- `post_integration_inner`, `boundary_interaction_2d.hpp:171-264`: the object afterwards and for
each group the particles and their data. -/
def Edges2D.post (e : Edges2D) (env : EdgeEnv) (big : ℚ) (ncomp : Nat)
    (cells : List (List EdgeParticle)) (sel : List (Nat × Nat)) :
    Option (Edges2D × List (Int × List ((Nat × Nat) × HitData))) :=
  (e.findCells env cells sel).bind fun required =>
  (e.collectCells env required).bind fun e =>
  let n := (edgeNpart cells).sum
  (e.findIntersections env big ncomp cells sel ⟨List.replicate n (0, 0, 0), env.reals n⟩).bind
    fun buf =>
  (if e.groups.length = 1 then some sel
    else selectHits (edgeNpart cells) buf.ints (fun x => decide (x.1 ≠ 0)) sel).bind fun sel =>
  (e.groups.mapM fun g => (hitGroup (edgeNpart cells) buf g.1 sel).map fun l => (g.1, l)).map
    fun m => (e, m)

/-- `BoundaryNormalMapper::get`, `boundary_interaction_2d.hpp:44-50`: the flag and the normal. The
pointer is followed before the flag is tested. -/
def Edges2D.normalGet (e : Edges2D) (edge : Int) : Option (Bool × (ℚ × ℚ)) :=
  e.normals.root.bind fun rn => (nodeRead e.normals.heap rn 8 edge).bind fun r =>
  r.map fun v => (v.1, v.2)

end NP
