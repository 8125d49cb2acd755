import Verif.Mesh.ModelMap

/-!
# The Cartesian mesh

Model of `src/cartesian_mesh/cartesian_h_mesh.cpp` (decomposition, owned cells, claims,
neighbouring ranks, faces), `src/cartesian_mesh/cartesian_cell_bin.cpp`,
`src/cartesian_mesh/cartesian_periodic.cpp` and `src/cartesian_mesh.cpp` (local mapper).

Arrays with one entry per dimension are lists of `ndim` entries. Where the code uses the
default values of the entries of its arrays of three (`cell_starts = 0`, `cell_ends = 1`),
the lists are padded. Integers are unbounded, `REAL` arithmetic is exact.
-/

set_option autoImplicit false

namespace NP

/-- An MPI Cartesian communicator: its dimensions and the numbering of its ranks, which is
up to the MPI implementation. -/
structure CartComm where
  /-- `mpi_dims`. -/
  dims : List Nat
  /-- The rank with the given coordinates. -/
  rankOf : List Nat → Nat
  /-- `MPI_Cart_coords`. -/
  coordsOf : Nat → List Nat

/-- If the coordinates are in the grid of ranks. -/
def CartComm.inGrid : List Nat → List Nat → Bool
  | [], [] => true
  | n :: ns, x :: xs => decide (x < n) && CartComm.inGrid ns xs
  | _, _ => false

/-- `MPI_Cart_rank`. Coordinates outside of the grid are an error (or wrapped, if the
dimension is periodic; the code never does that). -/
def CartComm.cartRank (c : CartComm) (x : List Nat) : Option Nat :=
  if CartComm.inGrid c.dims x then some (c.rankOf x) else none

/-- A Cartesian mesh, src/cartesian_mesh/cartesian_h_mesh.cpp:5-36. -/
structure CartMesh where
  /-- Coarse cells and subdivision order. -/
  mh : MeshHierarchy
  /-- `comm_cart`. -/
  comm : CartComm
  /-- `stencil_width`. -/
  stencil : Nat

/-- `ndim`. -/
def CartMesh.ndim (m : CartMesh) : Nat := m.mh.ndim

/-- `cell_counts`, src/cartesian_mesh/cartesian_h_mesh.cpp:35-36. -/
def CartMesh.cellCounts (m : CartMesh) : List Int := m.mh.dims.map (· * 2 ^ m.mh.order)

/-- `cell_starts` and `cell_ends` of the rank with the given coordinates,
src/cartesian_mesh/cartesian_h_mesh.cpp:107-111, with the assertion in lines 131-136. -/
def boxOf : List Nat → List Int → List Nat → Option (List (Int × Int))
  | [], [], [] => some []
  | n :: ns, c :: cs, x :: xs =>
    (getDecomp1d n c.toNat x).bind fun (lo, hi) =>
    if (hi : Int) - lo > 0 then (boxOf ns cs xs).bind fun r => some (((lo : Int), (hi : Int)) :: r)
    else none
  | _, _, _ => none

/-- The box of rank `r`. -/
def CartMesh.box (m : CartMesh) (r : Nat) : Option (List (Int × Int)) :=
  boxOf m.comm.dims m.cellCounts (m.comm.coordsOf r)

/-- `{cell_starts[d], cell_ends[d]}` for `d = 0, 1, 2`. -/
def padBox (b : List (Int × Int)) : List (Int × Int) := b ++ List.replicate (3 - b.length) (0, 1)

/-- `for (cz = ..) for (cy = ..) for (cx = ..)` over an array of three ranges. -/
def loop3 (b : List (Int × Int)) : Option (List (List Int)) :=
  (rd b 0).bind fun b0 => (rd b 1).bind fun b1 => (rd b 2).bind fun b2 =>
  some ((intRange b2.1 b2.2).flatMap fun cz => (intRange b1.1 b1.2).flatMap fun cy =>
    (intRange b0.1 b0.2).map fun cx => [cx, cy, cz])

/-- `get_owned_cells`, src/cartesian_mesh/cartesian_h_mesh.cpp:403-417. `cell_count` is the
length (lines 139-158). -/
def getOwnedCells (b : List (Int × Int)) : Option (List (List Int)) := loop3 (padBox b)

/-- `cell_counts_local`, src/cartesian_mesh/cartesian_h_mesh.cpp:131-137. -/
def boxWidths (b : List (Int × Int)) : List Int := b.map fun p => p.2 - p.1

/-- The second loop of `get_global_cell_tuple_index`,
src/cartesian_mesh/cartesian_h_mesh.cpp:433-438. -/
def globalCellTuple : List (Int × Int) → Int → Option (List Int)
  | [], _ => some []
  | b :: bs, linear =>
    let w := b.2 - b.1
    if w = 0 then none else
    let cx := linear.tmod w
    (globalCellTuple bs ((linear - cx).tdiv w)).bind fun rest => some ((b.1 + cx) :: rest)

/-- `get_global_cell_tuple_index`, src/cartesian_mesh/cartesian_h_mesh.cpp:419-441. -/
def getGlobalCellTupleIndex (b : List (Int × Int)) (linear : Int) : Option (List Int) :=
  (getOwnedCells b).bind fun cells =>
  if 0 ≤ linear ∧ linear < cells.length then
    (globalCellTuple b linear).bind fun t => some (t ++ List.replicate (3 - b.length) 0)
  else none

/-- The loop of `get_mesh_tuple_owning_rank`,
src/cartesian_mesh/cartesian_h_mesh.cpp:446-456. -/
def owningCoords : List Nat → List Int → List Int → Option (List Nat)
  | [], [], _ => some []
  | n :: ns, c :: cs, x :: xs =>
    if 0 ≤ x ∧ x < c then
      (getDecomp1dInverse n c.toNat x.toNat).bind fun i =>
      (owningCoords ns cs xs).bind fun r => some (i :: r)
    else none
  | _, _, _ => none

/-- `get_mesh_tuple_owning_rank`, src/cartesian_mesh/cartesian_h_mesh.cpp:443-462. -/
def CartMesh.owningRank (m : CartMesh) (t : List Int) : Option Nat :=
  (owningCoords m.comm.dims m.cellCounts t).bind m.comm.cartRank

/-- `mesh_tuple_to_mh_tuple`, src/cartesian_mesh/cartesian_h_mesh.cpp:366-374. -/
def CartMesh.meshTupleToMh (m : CartMesh) (t : List Int) : Option (List Int) :=
  m.mh.cartToTuple t

/-- The linear index in the mesh hierarchy of a cell of the mesh, as computed in
src/cartesian_mesh/cartesian_h_mesh.cpp:147-152. -/
def CartMesh.mhIndex (m : CartMesh) (t : List Int) : Option Int :=
  (m.meshTupleToMh t).bind m.mh.tupleToLinearGlobal

/-- The calls of `claim_cell` made by rank `r`,
src/cartesian_mesh/cartesian_h_mesh.cpp:139-158. -/
def CartMesh.claimsOf (m : CartMesh) (r : Nat) : Option (List Claim) :=
  (m.box r).bind fun b => (getOwnedCells b).bind fun cells =>
  forAllM (fun t => (m.mhIndex t).bind fun i => some ⟨r, i, 1⟩) cells

/-- `stencil_cell_starts` and `stencil_cell_ends`,
src/cartesian_mesh/cartesian_h_mesh.cpp:164-170; also src/cartesian_mesh.cpp:31-35. -/
def stencilBox (w : Nat) (b : List (Int × Int)) : List (Int × Int) :=
  padBox (b.map fun p => (p.1 - w, p.2 + w))

/-- `(x + stencil_width * count) % MAX(count, 1)`, for the dimensions of the mesh; further
dimensions have `count = 0` in src/cartesian_mesh/cartesian_h_mesh.cpp:173-185 and
`count = 1` in src/cartesian_mesh.cpp:131-139, and `x = 0`. -/
def wrapStencil (w : Nat) : List Int → List Int → Option (List Int)
  | [], t => some t
  | c :: cs, x :: xs =>
    (wrapStencil w cs xs).bind fun r => some ((x + w * c).tmod (max c 1) :: r)
  | _ :: _, [] => none

/-- `neighbour_ranks`, src/cartesian_mesh/cartesian_h_mesh.cpp:162-202. `owner` is
`mesh_hierarchy->get_owner` on this rank. -/
def CartMesh.neighbourRanks (m : CartMesh) (owner : Int → Option Int) (r : Nat) :
    Option (List Int) :=
  (m.box r).bind fun b => (loop3 (stencilBox m.stencil b)).bind fun cells =>
  runItems (fun t s => (wrapStencil m.stencil m.cellCounts t).bind fun t' =>
    (m.mhIndex t').bind fun i => (owner i).bind fun o => some (intSetInsert o s)) cells []

/-! ## Binning into cells and periodic boundaries -/

/-- The loop over the dimensions of the kernel of `CartesianCellBin`,
src/cartesian_mesh/cartesian_cell_bin.cpp:22-31. -/
def binDims (wf inv : ℚ) : List (Int × Int) → List ℚ → Option (List Int)
  | [], _ => some []
  | b :: bs, p :: ps =>
    let pos := p - b.1 * wf
    let c0 := truncZ (pos * inv)
    let c1 := if c0 < 0 then 0 else c0
    let c2 := if c1 ≥ b.2 - b.1 then b.2 - b.1 - 1 else c1
    (binDims wf inv bs ps).bind fun r => some (c2 :: r)
  | _ :: _, [] => none

/-- The kernel of `CartesianCellBin`, src/cartesian_mesh/cartesian_cell_bin.cpp:18-41: the
value written to `cell_id[0]`. `extent` is the coarse cell width. -/
def CartMesh.cellBin (m : CartMesh) (extent : ℚ) (b : List (Int × Int)) (pos : List ℚ) :
    Option Int :=
  if 0 < m.ndim ∧ m.ndim < 4 then
    (binDims (extent / 2 ^ m.mh.order) (2 ^ m.mh.order / extent) b pos).bind fun cells =>
    radixToLinear (boxWidths b) cells
  else none

/-- `fmod` for a positive second argument, exact: the remainder of the division towards
zero. -/
def fmodQ (x y : ℚ) : ℚ := x - truncZ (x / y) * y

/-- The body of the kernel of `CartesianPeriodic` for one dimension,
src/cartesian_mesh/cartesian_periodic.cpp:27-36. -/
def wrapCoord (extent inv pos : ℚ) : ℚ :=
  let n : Int := |truncZ (pos * inv)|
  fmodQ (pos + ((n : ℚ) + 2) * extent) extent

/-- The kernel without masks, src/cartesian_mesh/cartesian_periodic.cpp:24-38: further
components are not touched. -/
def periodicStep : List ℚ → List ℚ → Option (List ℚ)
  | [], ps => some ps
  | e :: es, p :: ps => (periodicStep es ps).bind fun r => some (wrapCoord e (1 / e) p :: r)
  | _ :: _, [] => none

/-- The kernel with masks, src/cartesian_mesh/cartesian_periodic.cpp:65-82. -/
def periodicMaskStep : List ℚ → List Int → List ℚ → Option (List ℚ)
  | [], _, ps => some ps
  | e :: es, k :: ks, p :: ps => (periodicMaskStep es ks ps).bind fun r =>
    some ((if k ≠ 0 then wrapCoord e (1 / e) p else p) :: r)
  | _ :: _, _, _ => none

/-- `global_extents`, src/cartesian_mesh/cartesian_h_mesh.cpp:36. -/
def CartMesh.globalExtents (m : CartMesh) (extent : ℚ) : List ℚ :=
  m.mh.dims.map fun (n : Int) => extent * (n : ℚ)

/-! ## The local mapper -/

/-- The tuple with `x` in dimension `d` and zero otherwise, src/cartesian_mesh.cpp:53-59. -/
def axisTuple (d : Nat) (x : Int) : List Int := [0, 0, 0].set d x

/-- One pass of the loop in src/cartesian_mesh.cpp:47-76, which looks up the owner of a
cell in dimension `d`. -/
def lookupAxisStep (m : CartMesh) (owner : Int → Option Int) (d : Nat) (count : Int) (cx : Int)
    (lookup : List Int) : Option (List Int) :=
  if count = 0 then none else
  let cxs := (cx + m.stencil * count).tmod count
  (m.mhIndex (axisTuple d cxs)).bind fun i => (owner i).bind fun rank => (index rank).bind fun r =>
  (rd (m.comm.coordsOf r) d).bind fun coord => (index cxs).bind fun k => st lookup k (coord : Int)

/-- `dh_cell_lookups[d]`, src/cartesian_mesh.cpp:14-20 and 46-77. -/
def axisLookup (m : CartMesh) (owner : Int → Option Int) (b : List (Int × Int)) (d : Nat) :
    Option (List Int) :=
  (rd m.cellCounts d).bind fun count => (rd b d).bind fun p =>
  runItems (lookupAxisStep m owner d count) (intRange (p.1 - m.stencil) (p.2 + m.stencil))
    (List.replicate count.toNat (-1))

/-- `dims` padded with ones, src/cartesian_mesh.cpp:94-102. -/
def padDims (ds : List Nat) : List Nat := ds ++ List.replicate (3 - ds.length) 1

/-- `d0 + d1 * dims[0] + d2 * dims[0] * dims[1]`, src/cartesian_mesh.cpp:111 and 207-208. -/
def lexRank (dims : List Nat) (x : List Int) : Option Int :=
  (rd dims 0).bind fun (n0 : Nat) => (rd dims 1).bind fun (n1 : Nat) =>
  (rd x 0).bind fun x0 => (rd x 1).bind fun x1 => (rd x 2).bind fun x2 =>
  some (x0 + x1 * n0 + x2 * n0 * n1)

/-- `dh_rank_map`, src/cartesian_mesh.cpp:87-119. `MPI_Cart_rank` reads the first `ndim`
coordinates. -/
def rankMap (m : CartMesh) : Option (List Int) :=
  let dims := padDims m.comm.dims
  let size := m.comm.dims.prod
  (rd dims 0).bind fun n0 => (rd dims 1).bind fun n1 => (rd dims 2).bind fun n2 =>
  let items := (List.range n0).flatMap fun d0 => (List.range n1).flatMap fun d1 =>
    (List.range n2).map fun d2 => [d0, d1, d2]
  (runItems (fun x map => (m.comm.cartRank (x.take m.ndim)).bind fun impl =>
    (lexRank dims (x.map fun (k : Nat) => (k : Int))).bind fun lin =>
    if (0 ≤ lin ∧ lin < size) ∧ impl < size then
      (index lin).bind fun k => st map k (impl : Int)
    else none) items (List.replicate size (-1))).bind fun map =>
  if map.all (fun v => decide (0 ≤ v)) then some map else none

/-- The local mapper as it is after construction. -/
structure LocalMapper where
  /-- `dh_cell_lookups`. -/
  lookups : List (List Int)
  /-- `dh_rank_map`. -/
  ranks : List Int

/-- The coordinates found by the lookups, 0 for the dimensions that the mesh does not have:
src/cartesian_mesh.cpp:151-156. -/
def lookupCoords : List (List Int) → List Int → Option (List Int)
  | [], t => some (t.map fun _ => 0)
  | l :: ls, x :: xs => (index x).bind fun k => (rd l k).bind fun c =>
    (lookupCoords ls xs).bind fun r => some (c :: r)
  | _ :: _, [] => none

/-- One pass of the self test, src/cartesian_mesh.cpp:131-171, `r` is this rank. -/
def selfTest (m : CartMesh) (owner : Int → Option Int) (neighbours : List Int) (lm : LocalMapper)
    (r : Nat) (t : List Int) : Option Unit :=
  (wrapStencil m.stencil m.cellCounts t).bind fun t' => (m.mhIndex t').bind fun i =>
  (owner i).bind fun remote => (lookupCoords lm.lookups t').bind fun x =>
  (lexRank (padDims m.comm.dims) x).bind fun lin => (index lin).bind fun k =>
  (rd lm.ranks k).bind fun impl =>
  if impl = remote ∧ (impl ≠ (r : Int) → impl ∈ neighbours) then some () else none

/-- The constructor of the local mapper, src/cartesian_mesh.cpp:6-174. -/
def createLocalMapper (m : CartMesh) (owner : Int → Option Int) (neighbours : List Int) (r : Nat) :
    Option LocalMapper :=
  (m.box r).bind fun b =>
  (forAllM (axisLookup m owner b) (List.range m.ndim)).bind fun lookups =>
  (rankMap m).bind fun ranks =>
  let lm : LocalMapper := ⟨lookups, ranks⟩
  (loop3 (stencilBox m.stencil b)).bind fun cells =>
  (forAllM (selfTest m owner neighbours lm r) cells).bind fun _ => some lm

/-- The loop over the dimensions of the kernel, src/cartesian_mesh.cpp:196-206. -/
def mapperCells (inv : ℚ) : List Int → List ℚ → Option (List Int)
  | [], _ => some []
  | n :: ns, p :: ps =>
    let c0 := truncZ (p * inv)
    let c1 := if c0 ≥ n then n - 1 else if c0 < 0 then 0 else c0
    (mapperCells inv ns ps).bind fun r => some (c1 :: r)
  | _ :: _, [] => none

/-- The kernel of `CartesianHMeshLocalMapperT::map`, src/cartesian_mesh.cpp:192-216, for
one particle. -/
def localMapStep (m : CartMesh) (extent : ℚ) (lm : LocalMapper) (p : MapParticle) :
    Option MapParticle :=
  if p.rank1 < 0 then
    (mapperCells (2 ^ m.mh.order / extent) m.cellCounts p.pos).bind fun cells =>
    (lookupCoords lm.lookups (cells ++ List.replicate (3 - cells.length) 0)).bind fun x =>
    (lexRank (padDims m.comm.dims) x).bind fun lin =>
    (rd x 0).bind fun x0 => (rd x 1).bind fun x1 => (rd x 2).bind fun x2 =>
    (if x0 ≥ 0 ∧ x1 ≥ 0 ∧ x2 ≥ 0 then (index lin).bind fun k => rd lm.ranks k
      else some (-1)).bind fun remote =>
    some { p with
      rank1 := remote }
  else some p

end NP
