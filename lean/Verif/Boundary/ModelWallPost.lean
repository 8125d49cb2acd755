import Verif.Boundary.ModelWall
import Verif.Boundary.Model
import Verif.Basics.Model

/-!
# Model: `CartesianTrajectoryIntersection` on one rank

Models `include/neso_particles/cartesian_mesh/cartesian_trajectory_intersection.hpp` and
`src/cartesian_mesh/cartesian_trajectory_intersection.cpp` up to the exchange of face ids with other
ranks. Buffers taken from resource stacks hold arbitrary values and have exactly the requested
size (the real buffers may be larger). Integers are unbounded.
-/

set_option autoImplicit false

namespace NP

/-- The properties of one particle that are used: `position_dat` and `previous_position_sym`. -/
structure WallPart where
  pos : List ℚ
  prev : List ℚ
deriving DecidableEq

/-- The properties of particle `(c, l)`, as `P.at` and `PP.at` read them. -/
def wallPart (rows : List (List WallPart)) (c l : Nat) : Option WallPart :=
  (rd rows c).bind fun cell => rd cell l

/-- `pre_integration_inner`, cartesian_trajectory_intersection.hpp:58-76; the assertion in lines
60-63 is about a property that exists here. -/
def wallPre (P : LoopParams) (order : Sched) (ndim : Nat) (npart : List Nat) (par : Parent)
    (rows : List (List WallPart)) : Option (List (List WallPart)) :=
  rowLoop P order npart par
    (fun _ _ r => (forLoop 0 ndim (fun dx pp => (rd r.pos dx).bind fun x => st pp dx x) r.prev).bind
      fun pp => some { r with prev := pp }) rows

/-- `static_particle_sub_group(parent, kernel, ...)` with a kernel which may fail: `none` if it does
for a particle of the parent. Which particles are chosen is the selector of C21. -/
def selectKernel (e : SelEnv) (npart : List Nat) (par : Parent) (kernel : Nat → Nat → Option Bool) :
    Option Selection :=
  (parentVisits e.P npart par).bind fun visits =>
  (visits.mapM fun it => (par.layerAt it.1 it.2).bind fun l => kernel it.1 l).bind fun _ =>
  selectCreate e npart par fun c l => kernel c l == some true

/-- `k_buffer`, `k_buffer_int` and `k_lut`, cartesian_trajectory_intersection.hpp:118-141. -/
structure WallBufs where
  pts : List ℚ
  sides : List Int
  lut : List Int

/-- The kernel that finds the intersections,
cartesian_trajectory_intersection.hpp:147-333: the stores of lines 205-209 and 323-329. -/
def wallStore (ext : List ℚ) (tol : ℚ) (npart : List Nat) (rows : List (List WallPart))
    (dep : Selection) (it : Nat × Nat) (b : WallBufs) : Option WallBufs :=
  (dep.layerAt it.1 it.2).bind fun l =>
  (wallPart rows it.1 l).bind fun p =>
  (wallHit ext tol p.pos p.prev).bind fun h =>
  (loopIdx dep.dEs it.1 it.2).bind fun li =>
  (forLoop 0 ext.length (fun dx pts => (rd h.2.1 dx).bind fun x =>
    st pts (dep.npartLocal * dx + li) x) b.pts).bind fun pts =>
  (st b.sides li h.2.2).bind fun sides =>
  (localLinearIndex npart it.1 l).bind fun lin =>
  (st b.lut lin (if h.1 then (li : Int) else -1)).bind fun lut =>
  some ⟨pts, sides, lut⟩

/-- The value of `k_lut` that the kernels read for a particle. -/
def wallLut (npart : List Nat) (b : WallBufs) (c l : Nat) : Option Int :=
  (localLinearIndex npart c l).bind fun lin => rd b.lut lin

/-- The check, cartesian_trajectory_intersection.hpp:337-344 and 391. What is printed for
particles without an intersection is left out. -/
def wallCheck (P : LoopParams) (npart : List Nat) (dep : Selection) (b : WallBufs) : Option Unit :=
  (parentVisits P npart (.sub dep)).bind fun visits =>
  (visits.mapM fun it => (dep.layerAt it.1 it.2).bind fun l => wallLut npart b it.1 l).bind fun vs =>
  if vs.all fun v => decide (v > -1) then some () else none

/-- `CART_TRAJ_INT_MASK_VALUE`, cartesian_trajectory_intersection.hpp:20. -/
def wallMask : Int := -2 ^ 31

/-- `k_boundary_group_map`, cartesian_trajectory_intersection.hpp:394-406. `groups` is
`boundary_groups`, in ascending order of the keys. -/
def wallGroupMap (ndim : Nat) (groups : List (Int × List Int)) : Option (List Int) :=
  let maxEdge : Int := if ndim = 2 then 4 else 6
  runItems (fun g m => runItems (fun ex m =>
      if -1 < ex ∧ ex < maxEdge then st m ex.toNat g.1 else none) g.2 m)
    groups (List.replicate 6 wallMask)

/-- The index into the buffers and the side of a particle, as read by the kernels in
cartesian_trajectory_intersection.hpp:416-417 and 435-436. -/
def wallFacet (npart : List Nat) (b : WallBufs) (c l : Nat) : Option (Nat × Nat) :=
  (wallLut npart b c l).bind fun i => (index i).bind fun i =>
  (rd b.sides i).bind fun f => (index f).bind fun f => some (i, f)

/-- The kernel which chooses the particles of a group,
cartesian_trajectory_intersection.hpp:415-419. -/
def wallInGroup (npart : List Nat) (b : WallBufs) (gmap : List Int) (group : Int) (c l : Nat) :
    Option Bool :=
  (wallFacet npart b c l).bind fun x => (rd gmap x.2).bind fun g => some (g == group)

/-! ## `setup` -/

/-- `element_offsets_tmp`, cartesian_trajectory_intersection.cpp:11-50. The assertions about the
totals are equalities of the same sums. -/
def wallFaceCounts (m : CartMesh) : List Int :=
  let nf := m.mh.ncellsDimFine
  match m.mh.dims with
  | [d0, d1] => [d0 * nf, d1 * nf, d0 * nf, d1 * nf, 0, 0]
  | [d0, d1, d2] => [d0 * d2 * nf ^ 2, d1 * d2 * nf ^ 2, d0 * d2 * nf ^ 2, d1 * d2 * nf ^ 2,
      d0 * d1 * nf ^ 2, d0 * d1 * nf ^ 2]
  | _ => []

/-- `element_strides0`, cartesian_trajectory_intersection.cpp:26-29 and 52-57; entries 4 and 5 are
not set in two dimensions. -/
def wallStrides0 (m : CartMesh) : List Int :=
  let nf := m.mh.ncellsDimFine
  match m.mh.dims with
  | [d0, d1] => [d0 * nf, d1 * nf, d0 * nf, d1 * nf]
  | [d0, d1, _] => [d0 * nf, d1 * nf, d0 * nf, d1 * nf, d0 * nf, d0 * nf]
  | _ => []

/-- `element_strides1`, cartesian_trajectory_intersection.cpp:30-33 and 59-64; entries 4 and 5 are
not set in two dimensions. -/
def wallStrides1 (m : CartMesh) : List Int :=
  let nf := m.mh.ncellsDimFine
  match m.mh.dims with
  | [_, _] => [1, 1, 1, 1]
  | [_, d1, d2] => [d2 * nf, d2 * nf, d2 * nf, d2 * nf, d1 * nf, d1 * nf]
  | _ => []

/-- `element_offsets`, cartesian_trajectory_intersection.cpp:72-73. -/
def wallOffsets (m : CartMesh) : List Int := exclusiveFrom 0 (wallFaceCounts m)

/-! ## The information of each particle -/

/-- `normals`, cartesian_trajectory_intersection.hpp:439-441. -/
def wallNormals : List (List ℚ) :=
  [[0, 1, 0], [-1, 0, 0], [0, -1, 0], [1, 0, 0], [0, 0, 1], [0, 0, -1]]

/-- `facet_to_indices`, cartesian_trajectory_intersection.hpp:449-450. -/
def wallFacetIndices : List (Nat × Nat) := [(0, 2), (1, 2), (0, 2), (1, 2), (0, 1), (0, 1)]

/-- The `EphemeralDat`s of a particle of a group: point, normal and metadata. -/
structure WallRow where
  point : List ℚ
  normal : List ℚ
  info : List Int
deriving DecidableEq

/-- The face id of a point on side `f`, cartesian_trajectory_intersection.hpp:452-468. `inv` is
`inverse_cell_width_fine`. -/
def wallElement (m : CartMesh) (inv : ℚ) (f : Nat) (point : List ℚ) : Option Int :=
  (rd wallFacetIndices f).bind fun ix =>
  (rd point ix.1).bind fun p0 =>
  (if m.mh.dims.length = 3 then rd point ix.2 else some 0).bind fun p1 =>
  (rd (wallStrides0 m) f).bind fun s0 => (rd (wallStrides1 m) f).bind fun s1 =>
  (rd (wallOffsets m) f).bind fun offset =>
  let c0 := min (s0 - 1) (truncZ (inv * p0))
  let c1 := min (s1 - 1) (truncZ (inv * p1))
  some (offset + c0 + c1 * s0)

/-- The kernel `collect_information`, cartesian_trajectory_intersection.hpp:431-471, called for the
particle at loop layer `k` of cell `c` of the sub group `sel`; `n` is `npart_leaving`. -/
def wallCollectKernel (m : CartMesh) (inv : ℚ) (npart : List Nat) (n : Nat) (b : WallBufs)
    (gmap : List Int) (sel : Selection) (c k : Nat) (r : WallRow) : Option WallRow :=
  (sel.layerAt c k).bind fun l =>
  (wallFacet npart b c l).bind fun x =>
  (rd gmap x.2).bind fun g =>
  (st r.info 0 g).bind fun info =>
  (forLoop 0 m.mh.dims.length (fun dx (s : List ℚ × List ℚ) =>
    (rd b.pts (n * dx + x.1)).bind fun v => (st s.1 dx v).bind fun point =>
    (rd wallNormals x.2).bind fun ns => (rd ns dx).bind fun v => (st s.2 dx v).bind fun normal =>
    some (point, normal)) (r.point, r.normal)).bind fun s =>
  (wallElement m inv x.2 s.1).bind fun id =>
  (st info 1 id).bind fun info =>
  some ⟨s.1, s.2, info⟩

/-- New `EphemeralDat`s, boundary_interaction_specification.cpp:34-47 and
ephemeral_dats.hpp:79-103: rows for the particles of the sub group in each cell, with `ndim`,
`ndim` and 2 components of arbitrary values. -/
def FreshRows (ndim : Nat) : Type :=
  (counts : List Nat) → {rows : List (List WallRow) // rows.map List.length = counts ∧
    ∀ cell ∈ rows, ∀ r ∈ cell, r.point.length = ndim ∧ r.normal.length = ndim ∧ r.info.length = 2}

/-- The schedules, loop parameters and memory contents of one call. -/
structure WallEnv (ndim : Nat) where
  P : LoopParams
  dep : SelEnv
  hit : Sched
  pts : Fresh ℚ
  sides : Fresh Int
  lut : Fresh Int
  grp : Int → SelEnv
  rows : Int → FreshRows ndim
  collect : Int → Sched

/-- `post_integration_inner`, cartesian_trajectory_intersection.hpp:78-484: for each group, in
ascending order, its sub group with its `EphemeralDat`s. `extent` is the coarse cell width. -/
def wallPost (m : CartMesh) (extent tol : ℚ) (groups : List (Int × List Int))
    (e : WallEnv m.mh.dims.length) (npart : List Nat) (par : Parent) (rows : List (List WallPart)) :
    Option (List (Int × Selection × List (List WallRow))) :=
  let ext := m.globalExtents extent
  let ndim := m.mh.dims.length
  if ndim = 2 ∨ ndim = 3 then
    (selectKernel e.dep npart par fun c l => (wallPart rows c l).bind fun p => wallDeparts ext p.pos).bind
      fun dep =>
    (parentVisits e.P npart (.sub dep)).bind fun visits =>
    (runItems (wallStore ext tol npart rows dep) (e.hit.order visits)
      ⟨(e.pts (ndim * dep.npartLocal)).val, (e.sides dep.npartLocal).val,
        (e.lut npart.sum).val⟩).bind fun b =>
    (wallCheck e.P npart dep b).bind fun _ =>
    (wallGroupMap ndim groups).bind fun gmap =>
    (groups.mapM fun g => (selectKernel (e.grp g.1) npart (.sub dep)
      (wallInGroup npart b gmap g.1)).bind fun sel => some (g.1, sel)).bind fun sels =>
    sels.mapM fun s =>
      (parentVisits e.P npart (.sub s.2)).bind fun visits =>
      (runItems (rowStep .whole (wallCollectKernel m (2 ^ m.mh.order / extent) npart dep.npartLocal b gmap s.2))
        ((e.collect s.1).order visits) (e.rows s.1 s.2.hNpart).val).bind fun rs =>
      some (s.1, s.2, rs)
  else none

end NP
