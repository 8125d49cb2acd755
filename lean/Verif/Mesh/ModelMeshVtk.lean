import Verif.Mesh.ModelFace
import Verif.Io.ModelVtk

/-!
# Model: Cartesian meshes and functions on their boundary as unstructured grids

Models `get_vtk_cell_points`, `get_vtk_cell_data`, `get_vtk_face_cell_points` and `get_vtk_face_cell_data`,
`src/cartesian_mesh/cartesian_h_mesh.cpp:572-720`, and `CartesianHMeshFunction::write_vtkhdf`,
`src/cartesian_mesh/cartesian_h_mesh_function.cpp:42-70`.

Simplifications. `cell_width_fine` is an integer `w` (all coordinates are multiples of it, choose it as the unit of
length). Integers are unbounded. The name "u" is an integer. The copy of the degrees of freedom to the host is left
out. A read out of the bounds of an array is `none`.
-/

set_option autoImplicit false

namespace NP

/-- `offsets`, cartesian_h_mesh.cpp:575-591. -/
def vtkOffsets (ndim : Nat) : List (List Int) :=
  [[0, 0, 0], [1, 0, 0]] ++
  (if ndim > 1 then [[1, 1, 0], [0, 1, 0]] else []) ++
  (if ndim > 2 then [[0, 0, 1], [1, 0, 1], [1, 1, 1], [0, 1, 1]] else [])

/-- `get_vtk_cell_points(index_tuple)`, cartesian_h_mesh.cpp:572-605. -/
def vtkTuplePoints (ndim : Nat) (w : Int) (t : List Int) : Option (List Int) :=
  runItems (fun ox pts => forLoop 0 3 (fun dx pts => (rd t dx).bind fun i => (rd ox dx).bind fun o =>
    some (pts ++ [i * w + o * w])) pts) (vtkOffsets ndim) []

/-- `get_vtk_cell_points(index)`, cartesian_h_mesh.cpp:607-613. -/
def CartMesh.vtkCellPoints (m : CartMesh) (w : Int) (b : List (Int × Int)) (index : Int) : Option (List Int) :=
  (getGlobalCellTupleIndex b index).bind fun t => vtkTuplePoints m.ndim w t

/-- `get_vtk_cell_data`, cartesian_h_mesh.cpp:615-625, on the rank with the box `b`; `cell_count` is the number of
owned cells. -/
def CartMesh.vtkCellData (m : CartMesh) (w : Int) (b : List (Int × Int)) : Option (List VtkCell) :=
  (getOwnedCells b).bind fun cells => (List.range cells.length).mapM fun (cx : Nat) =>
    (m.vtkCellPoints w b cx).bind fun pts =>
    some ⟨if m.ndim = 2 then 4 else 8, pts, if m.ndim = 2 then 9 else 12, [], []⟩

/-- `indices` in two dimensions, cartesian_h_mesh.cpp:639. -/
def faceCorners2 : List Nat := [0, 1, 1, 2, 3, 2, 0, 3]

/-- `indices` in three dimensions, cartesian_h_mesh.cpp:666-673. -/
def faceCorners3 : List Nat :=
  [0, 1, 5, 4,
   1, 2, 6, 5,
   3, 2, 6, 7,
   0, 3, 7, 4,
   0, 1, 2, 3,
   4, 5, 6, 7]

/-- The loops over the corners of a face with `n` corners, cartesian_h_mesh.cpp:641-645 and 675-679. -/
def facePoints (table : List Nat) (n f : Nat) (cellPoints : List Int) : Option (List Int) :=
  forLoop 0 n (fun px pts => forLoop 0 3 (fun cx pts => (rd table (f * n + px)).bind fun k =>
    (rd cellPoints (3 * k + cx)).bind fun x => some (pts ++ [x])) pts) []

/-- `get_vtk_face_cell_points(face_index_tuple)`, cartesian_h_mesh.cpp:627-683. -/
def CartMesh.vtkFaceTuplePoints (m : CartMesh) (w : Int) (face : List Int) : Option (List Int) :=
  (m.meshTupleOwningFace face [0, 0, 0]).bind fun t => (vtkTuplePoints m.ndim w t).bind fun cellPoints =>
  (rd face 0).bind fun fi => (index fi).bind fun f =>
  if m.ndim = 2 then facePoints faceCorners2 2 f cellPoints else facePoints faceCorners3 4 f cellPoints

/-- `get_vtk_face_cell_points(face_index)`, cartesian_h_mesh.cpp:685-695. -/
def CartMesh.vtkFacePoints (m : CartMesh) (w id : Int) : Option (List Int) :=
  (rd (faceScans 0 m.geomsPerFace) (if m.ndim = 2 then 3 else 5)).bind fun sc =>
  if 0 ≤ id ∧ id < sc.2 then (m.getFaceIdAsTuple id).bind fun face => m.vtkFaceTuplePoints w face else none

/-- `get_vtk_face_cell_data(face_cell)`, cartesian_h_mesh.cpp:701-710. -/
def CartMesh.vtkFaceCell (m : CartMesh) (w id : Int) : Option VtkCell :=
  (m.vtkFacePoints w id).bind fun pts =>
  some ⟨if m.ndim = 2 then 2 else 4, pts, if m.ndim = 2 then 3 else 9, [], []⟩

/-- `get_vtk_face_cell_data()`, cartesian_h_mesh.cpp:712-720, for the owned faces. -/
def CartMesh.vtkFaceCells (m : CartMesh) (w : Int) (owned : List Int) : Option (OMap VtkCell) :=
  runItems (fun ix out => (m.vtkFaceCell w ix).bind fun c => some (omPut out ix c)) owned []

/-- A `CartesianHMeshFunction` on one rank: `cells` and the degrees of freedom. -/
structure FaceFunction where
  cells : List Int
  dofs : List Int

/-- The loop over the cells in `write_vtkhdf`, cartesian_h_mesh_function.cpp:58-66; `u` is the name of the
function. -/
def CartMesh.faceFunctionCells (m : CartMesh) (w u : Int) (f : FaceFunction) : Option (List VtkCell) :=
  (runItems (fun cx (s : Nat × List VtkCell) => (m.vtkFaceCell w cx).bind fun c =>
    (rd f.dofs s.1).bind fun v => some (s.1 + 1, s.2 ++ [{ c with cellData := omPut c.cellData u v }]))
    f.cells (0, [])).map (·.2)

/-- `write_vtkhdf` on all ranks, cartesian_h_mesh_function.cpp:42-70: the new file. -/
def CartMesh.writeFaceFunction (m : CartMesh) (w u : Int) (sch : Sched) (fs : List FaceFunction) :
    Option VtkFile :=
  (fs.mapM fun f => (m.faceFunctionCells w u f).map fun data => (⟨data, [], [u]⟩ : VtkRank)).bind fun ranks =>
  (VtkWriter.write sch ⟨true, none⟩ ranks).bind (·.file)

end NP
