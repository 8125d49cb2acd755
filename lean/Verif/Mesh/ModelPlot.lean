import Verif.Mesh.Model
import Verif.Petsc.ModelHalo
import Mathlib.Algebra.Order.Field.Rat

/-!
# Model: plots of the cells of a mesh hierarchy

Models `VTKMeshHierarchyCellsWriter`, `include/neso_particles/utility_mesh_hierarchy_plotting.hpp:16-77` and
`src/utility_mesh_hierarchy_plotting.cpp`.

Simplifications. The file is the sequence of the numbers in its sections, headers are left out. Widths, origins and
coordinates are rationals and are written exactly. Integers are unbounded. The order of `verts_to_index` is not used
by the code, entries are in the order of insertion.
-/

set_option autoImplicit false

namespace NP

/-- A vertex of the grid of cells. -/
abbrev PlotVert := Int × Int × Int

/-- The members of the writer, plotting.hpp:20-27. -/
structure PlotWriter where
  cells : List Int
  vertsToIndex : List (PlotVert × Int)
  indexToVerts : OMap PlotVert
  next : Int

/-- A new writer, plotting.hpp:47-48. -/
def PlotWriter.new : PlotWriter := ⟨[], [], [], 0⟩

/-- `verts_to_index[vert]` if there is such an entry. -/
def plotFind (m : List (PlotVert × Int)) (v : PlotVert) : Option Int := (m.find? fun e => e.1 == v).map (·.2)

/-- `get_index`, plotting.cpp:5-15. -/
def PlotWriter.getIndex (w : PlotWriter) (v : PlotVert) : Int × PlotWriter :=
  match plotFind w.vertsToIndex v with
  | some i => (i, w)
  | none => (w.next, { w with
      vertsToIndex := w.vertsToIndex ++ [(v, w.next)]
      indexToVerts := omPut w.indexToVerts w.next v
      next := w.next + 1 })

/-- `to_standard_tuple`, plotting.cpp:17-30; `stuple` has three entries. -/
def plotTuple (mh : MeshHierarchy) (linear : Int) : Option PlotVert :=
  (mh.linearToTupleGlobal linear).bind fun t =>
  (forLoop 0 mh.ndim (fun d s => (rd t d).bind fun c => (rd t (d + mh.ndim)).bind fun f =>
    st s d (c * mh.ncellsDimFine + f)) [0, 0, 0]).bind fun s =>
  (rd s 0).bind fun x => (rd s 1).bind fun y => (rd s 2).bind fun z => some (x, y, z)

/-- `get_coarse_tuples`, plotting.cpp:32-59. -/
def plotCoarse (mh : MeshHierarchy) : Option (List PlotVert) :=
  (rd mh.dims 0).bind fun e0 =>
  (if mh.ndim > 1 then rd mh.dims 1 else some 1).bind fun e1 =>
  (if mh.ndim > 2 then rd mh.dims 2 else some 1).bind fun e2 =>
  some ((intRange 0 e2).flatMap fun z => (intRange 0 e1).flatMap fun y => (intRange 0 e0).map fun x => (x, y, z))

/-- `get_lines`, plotting.cpp:61-91. -/
def plotLines (ndim : Nat) (base : PlotVert) : List (PlotVert × PlotVert) :=
  let bx := base.1
  let b_y := base.2.1
  let bz := base.2.2
  [((bx, b_y, bz), (bx + 1, b_y, bz))] ++
  (if ndim > 1 then
    [((bx, b_y + 1, bz), (bx + 1, b_y + 1, bz)),
     ((bx, b_y, bz), (bx, b_y + 1, bz)),
     ((bx + 1, b_y, bz), (bx + 1, b_y + 1, bz))] else []) ++
  (if ndim > 2 then
    [((bx, b_y, bz + 1), (bx + 1, b_y, bz + 1)),
     ((bx, b_y + 1, bz + 1), (bx + 1, b_y + 1, bz + 1)),
     ((bx, b_y, bz + 1), (bx, b_y + 1, bz + 1)),
     ((bx + 1, b_y, bz + 1), (bx + 1, b_y + 1, bz + 1)),
     ((bx, b_y, bz), (bx, b_y, bz + 1)),
     ((bx + 1, b_y, bz), (bx + 1, b_y, bz + 1)),
     ((bx + 1, b_y + 1, bz), (bx + 1, b_y + 1, bz + 1)),
     ((bx, b_y + 1, bz), (bx, b_y + 1, bz + 1))] else [])

/-- `lambda_push_edges`, plotting.cpp:101-107. -/
def plotPush (lines : List (PlotVert × PlotVert)) (s : PlotWriter × List (Int × Int)) :
    PlotWriter × List (Int × Int) :=
  lines.foldl (fun s l =>
    let a := s.1.getIndex l.1
    let b := a.2.getIndex l.2
    (b.2, s.2 ++ [(a.1, b.1)])) s

/-- The numbers in a legacy VTK file of an unstructured grid. -/
structure PlotFile where
  npoints : Nat
  points : List (List ℚ)
  ncells : Nat
  nints : Nat
  ints : List Int
  types : List Nat
  deriving DecidableEq

/-- The geometry of the hierarchy: `origin` and `cell_width_coarse`. -/
structure PlotGeom where
  origin : List ℚ
  extent : ℚ

/-- `origin` in three dimensions, plotting.cpp:135-139. -/
def plotOrigin (ndim : Nat) (g : PlotGeom) : Option (List ℚ) :=
  forLoop 0 ndim (fun d o => (rd g.origin d).bind fun x => st o d x) [0, 0, 0]

/-- `write_inner`, plotting.cpp:93-170. The access `index_to_verts[vx]` gives zeros if there is no entry. -/
def PlotWriter.writeInner (mh : MeshHierarchy) (g : PlotGeom) (fine : Bool) (w : PlotWriter) :
    Option (PlotFile × PlotWriter) :=
  let w0 : PlotWriter := ⟨w.cells, [], [], 0⟩
  (if fine then w.cells.mapM (plotTuple mh) else plotCoarse mh).bind fun bases =>
  let s := bases.foldl (fun s base => plotPush (plotLines mh.ndim base) s) (w0, [])
  let width := if fine then g.extent / 2 ^ mh.order else g.extent
  (plotOrigin mh.ndim g).bind fun o =>
  (rd o 0).bind fun o0 => (rd o 1).bind fun o1 => (rd o 2).bind fun o2 =>
  let points := (intRange 0 s.1.next).map fun vx =>
    let v := (omGet s.1.indexToVerts vx).getD (0, 0, 0)
    [(v.1 : ℚ) * width + o0, (v.2.1 : ℚ) * width + o1, (v.2.2 : ℚ) * width + o2]
  let ints := s.2.flatMap fun e => [2, e.1, e.2]
  some (⟨s.1.indexToVerts.length, points, s.2.length, ints.length, ints, List.replicate s.2.length 3⟩, s.1)

/-- `push_back`, plotting.cpp:172-174. -/
def PlotWriter.pushBack (c : Int) (w : PlotWriter) : PlotWriter := { w with cells := w.cells ++ [c] }

/-- `write`, plotting.cpp:176-178. -/
def PlotWriter.write (mh : MeshHierarchy) (g : PlotGeom) (w : PlotWriter) : Option (PlotFile × PlotWriter) :=
  w.writeInner mh g true

/-- `write_all_fine`, plotting.cpp:180-189; there is a file only on rank 0. -/
def PlotWriter.writeAllFine (mh : MeshHierarchy) (g : PlotGeom) (rank : Nat) (w : PlotWriter) :
    Option (Option PlotFile × PlotWriter) :=
  if rank = 0 then
    (((intRange 0 mh.ncellsGlobal).foldl (fun w c => w.pushBack c) w).write mh g).map fun r => (some r.1, r.2)
  else some (none, w)

/-- `write_all_coarse`, plotting.cpp:191-196; there is a file only on rank 0. -/
def PlotWriter.writeAllCoarse (mh : MeshHierarchy) (g : PlotGeom) (rank : Nat) (w : PlotWriter) :
    Option (Option PlotFile × PlotWriter) :=
  if rank = 0 then (w.writeInner mh g false).map fun r => (some r.1, r.2) else some (none, w)

end NP
