import Verif.Mesh.ModelOverlay
import Verif.Petsc.ModelHalo

/-!
# Model: particles to cells of two dimensional unstructured meshes

Models `src/external_interfaces/petsc/particle_cell_mapping/dmplex_2d_mapper.cpp`,
`DMPlexHelper::cell_contains_point` and the bounding boxes of `DMPlexHelper`
(`src/external_interfaces/petsc/dmplex_helper.cpp`), with
`include/neso_particles/external_interfaces/common/bounding_box.hpp`. The test of one edge is
modelled for an arbitrary arithmetic, the rest for exact numbers. What
`DMPlexGetCellCoordinates` returns for a cell is a list of numbers `x0 y0 x1 y1 ...`.
-/

set_option autoImplicit false

namespace NP

/-- `consistent_line_orientation_2d`, include/neso_particles/device_functions.hpp:112-124. -/
def lineOrient {R : Type} [LinearOrder R] (a b : R × R) : (R × R) × (R × R) :=
  let axfirst := decide (a.1 < b.1)
  let ayfirst := decide (a.2 < b.2)
  let afirst := if a.1 = b.1 then ayfirst else axfirst
  ((if afirst then a.1 else b.1, if afirst then a.2 else b.2),
    (if afirst then b.1 else a.1, if afirst then b.2 else a.2))

/-- What the test of one edge finds: the point is on it, a crossing, or nothing. -/
inductive EdgeHit where
  | on
  | cross
  | miss
  deriving DecidableEq

/-- The test of an oriented edge,
src/external_interfaces/petsc/particle_cell_mapping/dmplex_2d_mapper.cpp:219-234 and
src/external_interfaces/petsc/dmplex_helper.cpp:563-578. -/
def edgeCore {R : Type} [LinearOrder R] [Sub R] [Mul R] [Zero R] (p i j : R × R) : EdgeHit :=
  if p.1 = j.1 ∧ p.2 = j.2 then .on
  else if decide (j.2 > p.2) != decide (i.2 > p.2) then
    let det := (p.1 - j.1) * (i.2 - j.2) - (i.1 - j.1) * (p.2 - j.2)
    if det = 0 then .on
    else if decide (det < 0) != decide (i.2 < j.2) then .cross else .miss
  else .miss

/-- The body of the loop over faces,
src/external_interfaces/petsc/particle_cell_mapping/dmplex_2d_mapper.cpp:207-234. -/
def edgeTest {R : Type} [LinearOrder R] [Sub R] [Mul R] [Zero R] (p a b : R × R) : EdgeHit :=
  edgeCore p (lineOrient a b).1 (lineOrient a b).2

/-- `Linear2DData`,
include/neso_particles/external_interfaces/petsc/particle_cell_mapping/dmplex_2d_mapper.hpp:20-26;
the arrays of size eight as the part that is set. -/
structure Linear2D (R : Type) where
  /-- `owning_rank`. -/
  rank : Int
  /-- `local_id`. -/
  localId : Int
  /-- `num_vertices`. -/
  numVertices : Nat
  /-- `vertices`. -/
  vertices : List R
  /-- `faces`. -/
  faces : List Nat
  deriving DecidableEq

/-- The lambda `lambda_populate_cell_data`,
src/external_interfaces/petsc/particle_cell_mapping/dmplex_2d_mapper.cpp:38-80. -/
def populateCell {R : Type} (coords : List R) (rank localId : Int) : Option (Linear2D R) :=
  if coords.length = 8 then some ⟨rank, localId, 4, coords, [0, 1, 1, 2, 2, 3, 3, 0]⟩
  else if coords.length = 6 then some ⟨rank, localId, 3, coords, [0, 1, 1, 2, 2, 0]⟩
  else none

/-- The loop over the faces and the number of crossings,
src/external_interfaces/petsc/particle_cell_mapping/dmplex_2d_mapper.cpp:201-235; `n` crossings
are counted so far and the list is the faces which are left. -/
def crossLoop {R : Type} [LinearOrder R] [Sub R] [Mul R] [Zero R] (p : R × R) (vertices : List R)
    (faces : List Nat) : List Nat → Nat → Option Nat
  | [], n => some n
  | f :: fs, n =>
    (rd faces (2 * f + 0)).bind fun a => (rd faces (2 * f + 1)).bind fun b =>
    (rd vertices (a * 2 + 0)).bind fun xi => (rd vertices (a * 2 + 1)).bind fun yi =>
    (rd vertices (b * 2 + 0)).bind fun xj => (rd vertices (b * 2 + 1)).bind fun yj =>
    match edgeTest p (xi, yi) (xj, yj) with
    | .on => some 1
    | .cross => crossLoop p vertices faces fs (n + 1)
    | .miss => crossLoop p vertices faces fs n

/-- Whether a point is in a cell,
src/external_interfaces/petsc/particle_cell_mapping/dmplex_2d_mapper.cpp:197-237. -/
def Linear2D.contains {R : Type} [LinearOrder R] [Sub R] [Mul R] [Zero R] (c : Linear2D R)
    (p : R × R) : Option Bool :=
  (crossLoop p c.vertices c.faces (List.range c.numVertices) 0).bind fun n => some (n % 2 != 0)

/-- `DMPlexHelper::cell_contains_point`, src/external_interfaces/petsc/dmplex_helper.cpp:509-589,
for a cell with the given coordinates. There is no assertion on their number here. -/
def cellContainsPoint {R : Type} [LinearOrder R] [Sub R] [Mul R] [Zero R] (coords : List R)
    (p : R × R) : Option Bool :=
  (crossLoop p coords
    (if coords.length = 8 then [0, 1, 1, 2, 2, 3, 3, 0] else [0, 1, 1, 2, 2, 0])
    (List.range (coords.length / 2)) 0).bind fun n => some (n % 2 == 1)

/-! ## Bounding boxes -/

/-- `BoundingBox`: lower and upper bounds in three dimensions. -/
abbrev BBox := List ℚ × List ℚ

/-- `BoundingBox::expand`,
include/neso_particles/external_interfaces/common/bounding_box.hpp:98-104. -/
def BBox.expand (a b : BBox) : BBox := (List.zipWith min a.1 b.1, List.zipWith max a.2 b.2)

/-- `DMPlexHelper::get_cell_bounding_box`, src/external_interfaces/petsc/dmplex_helper.cpp:371-405,
in two dimensions. `big` is the greatest `REAL`. -/
def cellBox (big : ℚ) (coords : List ℚ) : Option BBox :=
  forLoop 0 (coords.length / 2) (fun vx s => forLoop 0 2 (fun d (s : BBox) =>
    (rd coords (vx * 2 + d)).bind fun c => (rd s.1 d).bind fun l => (rd s.2 d).bind fun u =>
    (st s.1 d (min l c)).bind fun lo => (st s.2 d (max u c)).bind fun up => some (lo, up)) s)
    (([big, big, 0], [-big, -big, 0]) : BBox)

/-- `DMPlexHelper::get_bounding_box` on first use,
src/external_interfaces/petsc/dmplex_helper.cpp:358-369, from the coordinates of all cells. -/
def meshBox (big : ℚ) (cells : List (List ℚ)) : Option BBox :=
  cells.foldlM (fun bb coords => (cellBox big coords).bind fun b => some (bb.expand b))
    ([big, big, big], [-big, -big, -big])

/-! ## The mapper -/

/-- `DMPlex2DMapper`: the tables `map_sizes` and `map_candidates` are one map from overlay cells
to candidate cells. -/
structure Mapper2D where
  /-- `overlay_mesh`. -/
  overlay : OverlayMesh
  /-- `cell_data`. -/
  cellData : List (Linear2D ℚ)
  /-- `map_overlay_cells`. -/
  candidates : OMap (List Nat)

/-- One iteration of the loops over local and halo cells,
src/external_interfaces/petsc/particle_cell_mapping/dmplex_2d_mapper.cpp:86-100 and 105-124: the
overlay cells, the description of the cell. `index` is the number of cells so far. -/
def Mapper2D.addCell (big : ℚ) (m : Mapper2D) (c : List ℚ × Int × Int) : Option Mapper2D :=
  (cellBox big c.1).bind fun bb => (m.overlay.intersectingCells bb.1 bb.2).bind fun ov =>
  (populateCell c.1 c.2.1 c.2.2).bind fun data =>
  some { m with
    candidates := ov.foldl (fun t ox => omPushAll t ox [m.cellData.length]) m.candidates
    cellData := m.cellData ++ [data] }

/-- The bounding box of the local mesh, computed on first use,
src/external_interfaces/petsc/dmplex_helper.cpp:360. -/
def cachedBox (big : ℚ) (localCells : List (List ℚ)) : Option BBox → Option BBox
  | some b => some b
  | none => meshBox big localCells

/-- Expand the box by the box of the halo mesh, if there is one,
src/external_interfaces/petsc/particle_cell_mapping/dmplex_2d_mapper.cpp:21-23. -/
def expandHalo (big : ℚ) (b : BBox) : Option (List (Int × List ℚ)) → Option BBox
  | some h => (meshBox big (h.map (·.2))).bind fun hb => some (b.expand hb)
  | none => some b

/-- The loop over local cells,
src/external_interfaces/petsc/particle_cell_mapping/dmplex_2d_mapper.cpp:82-100. -/
def Mapper2D.addLocal (big : ℚ) (rank : Int) (m : Mapper2D) (cells : List (List ℚ)) :
    Option Mapper2D :=
  cells.zipIdx.foldlM (fun (m : Mapper2D) c => m.addCell big (c.1, rank, (c.2 : Int))) m

/-- The loop over halo cells,
src/external_interfaces/petsc/particle_cell_mapping/dmplex_2d_mapper.cpp:102-125. -/
def Mapper2D.addHalo (big : ℚ) (lids : LidMap) (m : Mapper2D) (cells : List (Int × List ℚ)) :
    Option Mapper2D :=
  cells.foldlM (fun (m : Mapper2D) h => (omGet lids h.1).bind fun id =>
    m.addCell big (h.2, id.1, id.2.1)) m

/-- The constructor,
src/external_interfaces/petsc/particle_cell_mapping/dmplex_2d_mapper.cpp:7-166, on rank `rank`.
`localCells` are the coordinates of the local cells, `cached` the bounding box of the local mesh
if that was computed before, `halo` the cells of the halo mesh with their points (none if there is
no halo mesh), `lids` the map from points of the halo mesh to the rank, local id and global id of
the cell (`map_local_lid_remote_lid`). Returns the mapper and the bounding box of the local mesh
that is cached from then on: `expand` is called on the cached box. -/
def mapper2D (fuel : Nat) (big : ℚ) (rank : Int) (localCells : List (List ℚ)) (cached : Option BBox)
    (halo : Option (List (Int × List ℚ))) (lids : LidMap) : Option (Mapper2D × BBox) :=
  (cachedBox big localCells cached).bind fun b0 => (expandHalo big b0 halo).bind fun b =>
  (createOverlayMesh fuel 2 b.1 b.2 ((localCells.length + (halo.getD []).length : Nat) : Int)).bind
    fun ov =>
  (Mapper2D.addLocal big rank ⟨ov, [], []⟩ localCells).bind fun m =>
  (m.addHalo big lids (halo.getD [])).bind fun m =>
  some (m, b)

/-- The kernel of `DMPlex2DMapper::map` for one particle at `p`,
src/external_interfaces/petsc/particle_cell_mapping/dmplex_2d_mapper.cpp:181-242: `s` is the cell
and the rank (`CELL.at(0)`, `RANK.at(1)`). -/
def Mapper2D.particle (m : Mapper2D) (p : ℚ × ℚ) (s : Int × Int) : Option (Int × Int) :=
  (m.overlay.dim 0).bind fun d0 => (m.overlay.dim 1).bind fun d1 =>
  (m.overlay.linearIndex [d0.cell p.1, d1.cell p.2]).bind fun oc =>
  ((omGet m.candidates oc).getD []).foldlM (fun s cand => (rd m.cellData cand).bind fun data =>
    (data.contains p).bind fun b => some (if b then (data.localId, data.rank) else s)) s

/-- `DMPlex2DMapper::map` for the particles (position, cell, rank) of the cells that are looped
over, src/external_interfaces/petsc/particle_cell_mapping/dmplex_2d_mapper.cpp:168-273. A particle
is read and written by its own iteration only. If a cell is given (`check`) then particles without
rank are an error. -/
def Mapper2D.map (m : Mapper2D) (check : Bool) (ps : List ((ℚ × ℚ) × Int × Int)) :
    Option (List ((ℚ × ℚ) × Int × Int)) :=
  (ps.mapM fun x => (m.particle x.1 x.2).bind fun s => some (x.1, s)).bind fun qs =>
  if check && qs.any (fun x => !decide (x.2.2 > -1)) then none else some qs

end NP
