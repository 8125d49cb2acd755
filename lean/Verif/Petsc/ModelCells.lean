import Verif.Io.ModelVtk
import Mathlib.Data.Rat.Init
import Mathlib.Algebra.Order.Field.Rat

/-!
# Model: what an unstructured mesh reports about its cells

Models `get_cell_vertices`, `get_cell_vertex_average`, `get_face_sets`, `get_vtk_cell_data`, `get_volume` and
`get_cell_vertices_cdc` of `src/external_interfaces/petsc/dmplex_helper.cpp:434-745`, and
`make_quadrature_point_mapper_vertex` and `make_quadrature_point_mapper_average` of
`src/external_interfaces/petsc/dmplex_utility.cpp:130-195`.

Simplifications. Coordinates and volumes are rational numbers, integers where they are only copied. Integers are
unbounded. What PETSc returns is given: the coordinates and the volume of each cell and the label of each face.
The loops over cells that write to one entry per cell are maps over the cells. The move of the new points to their
cells (`add_points_finalise`) is not repeated here: the theorems take any result of it. A read or write out of the
bounds of an array, the use of an entry that was not set and a division by zero are `none`.
-/

set_option autoImplicit false

namespace NP

/-- A mesh on one rank: the number of dimensions, `map_np_to_petsc`, and the coordinates that
`DMPlexGetCellCoordinates` returns for each PETSc cell. -/
structure PlexCells (α : Type) where
  ndim : Nat
  toPetsc : List Nat
  coords : List (List α)

/-- `get_cell_vertices`, dmplex_helper.cpp:434-461. -/
def PlexCells.vertices {α : Type} [Zero α] (m : PlexCells α) (cell : Nat) : Option (List (List α)) :=
  (rd m.toPetsc cell).bind fun p => (rd m.coords p).bind fun cs =>
  if m.ndim = 0 then none else
  forLoop 0 (cs.length / m.ndim) (fun vx vs =>
    (forLoop 0 m.ndim (fun d tmp => (rd cs (vx * m.ndim + d)).bind fun x => st tmp d x)
      (List.replicate m.ndim 0)).bind fun tmp => some (vs ++ [tmp])) []

/-- `get_cell_vertex_average`, dmplex_helper.cpp:463-483; `avg` is the argument `average`. -/
def PlexCells.average (m : PlexCells ℚ) (cell : Nat) (avg : List ℚ) : Option (List ℚ) :=
  if avg.length = m.ndim then
    (m.vertices cell).bind fun vs =>
    (forLoop 0 vs.length (fun vx a => forLoop 0 m.ndim (fun d a =>
      (rd vs vx).bind fun v => (rd v d).bind fun x => (rd a d).bind fun y => st a d (y + x)) a)
      (avg.map fun _ => 0)).bind fun s =>
    if vs.length = 0 then none else
    forLoop 0 m.ndim (fun d a => (rd a d).bind fun y => st a d (y * (1 / (vs.length : ℚ)))) s
  else none

/-- `get_face_sets`, dmplex_helper.cpp:620-633, for the faces `start ≤ px < stop`; `value px` is what
`DMLabelGetValue` gives for the face. -/
def faceSetsOf (value : Nat → Int) (start stop : Nat) : Option (OMap (List Nat)) :=
  forLoop start stop (fun px m =>
    some (omPut m (value px) (((omGet m (value px)).getD []) ++ [px]))) []

/-- `get_vtk_cell_data`, dmplex_helper.cpp:645-668. -/
def PlexCells.vtkCells (m : PlexCells Int) : Option (List VtkCell) :=
  if m.ndim = 2 then
    (List.range m.toPetsc.length).mapM fun cellx => (m.vertices cellx).bind fun vs =>
      (forLoop 0 vs.length (fun vx pts =>
        (forLoop 0 m.ndim (fun dx pts => (rd vs vx).bind fun v => (rd v dx).bind fun x =>
          some (pts ++ [x])) pts).bind fun pts =>
        forLoop m.ndim 3 (fun _ pts => some (pts ++ [0])) pts) []).bind fun pts =>
      some ⟨vs.length, pts, if vs.length = 3 then 5 else 9, [], []⟩
  else none

/-- The local sum of `get_volume`, dmplex_helper.cpp:705-708. -/
def plexLocalVolume (vols : List ℚ) : Option ℚ :=
  forLoop 0 vols.length (fun cx s => (rd vols cx).bind fun v => some (s + v)) 0

/-- `get_volume` on all ranks, dmplex_helper.cpp:703-713: `vols` are the volumes of the cells of each rank, `cache` is
the member `volume` of each rank, which is also the result. If only some ranks enter the reduction they wait for
ever. -/
def plexVolume (vols : List (List ℚ)) (cache : List ℚ) : Option (List ℚ) :=
  if ∀ v ∈ cache, v < 0 then
    (vols.mapM plexLocalVolume).bind fun ls => some (cache.map fun _ => ls.sum)
  else if ∀ v ∈ cache, ¬ v < 0 then some cache else none

/-- Calls of `get_volume` after the construction, which sets `volume` to -1, dmplex_helper.cpp:266: the result of the
last one. -/
def plexVolumeCalls (vols : List (List ℚ)) : Nat → Option (List ℚ)
  | 0 => some (vols.map fun _ => -1)
  | n + 1 => (plexVolumeCalls vols n).bind fun cache => plexVolume vols cache

/-- The two containers of `get_cell_vertices_cdc`; `none` is an entry which was not set. -/
structure VertexTable (α : Type) where
  num : List (Option Nat)
  rows : List (List (List (Option α)))

/-- `get_cell_vertices_cdc`, dmplex_helper.cpp:715-754. -/
def PlexCells.verticesCdc {α : Type} [Zero α] (m : PlexCells α) : Option (VertexTable α) :=
  ((List.range m.toPetsc.length).mapM m.vertices).bind fun vertices =>
  let mx := vertices.foldl (fun a v => max a v.length) 0
  ((List.range m.toPetsc.length).mapM fun cellx => (rd vertices cellx).bind fun v =>
    (forLoop 0 v.length (fun rx tab => forLoop 0 m.ndim (fun cx tab =>
      (rd v rx).bind fun w => (rd w cx).bind fun x => (rd tab rx).bind fun row =>
      (st row cx (some x)).bind fun row => st tab rx row) tab)
      (List.replicate mx (List.replicate m.ndim none))).bind fun tab =>
    some (some v.length, tab)).bind fun out =>
  some ⟨out.map (·.1), out.map (·.2)⟩

/-- The points that `make_quadrature_point_mapper_vertex` adds, dmplex_utility.cpp:146-157. -/
def PlexCells.mapperPoints (m : PlexCells ℚ) (t : VertexTable ℚ) : Option (List (List ℚ)) :=
  (forLoop 0 m.toPetsc.length (fun cellx (s : List ℚ × List (List ℚ)) =>
    (rd t.num cellx).join.bind fun n => (m.average cellx s.1).bind fun avg =>
    (forLoop 0 n (fun _ pts => some (pts ++ [avg])) s.2).bind fun pts => some (avg, pts))
    (List.replicate m.ndim 0, [])).map (·.2)

/-- The particle loop of `make_quadrature_point_mapper_vertex`, dmplex_utility.cpp:160-170, on the positions of the
particles of each cell. -/
def moveToVertices (ndim : Nat) (t : VertexTable ℚ) (occ : List (List (List ℚ))) :
    Option (List (List (List ℚ))) :=
  (List.range occ.length).mapM fun cell => (rd occ cell).bind fun ps =>
    (List.range ps.length).mapM fun layer => (rd ps layer).bind fun pos =>
      forLoop 0 ndim (fun dx pos => (rd t.rows cell).bind fun tab => (rd tab layer).bind fun row =>
        (rd row dx).join.bind fun x => st pos dx x) pos

/-- The points that `make_quadrature_point_mapper_average` adds, dmplex_utility.cpp:186-191. -/
def PlexCells.averagePoints (m : PlexCells ℚ) : Option (List (List ℚ)) :=
  (forLoop 0 m.toPetsc.length (fun cellx (s : List ℚ × List (List ℚ)) =>
    (m.average cellx s.1).bind fun avg => some (avg, s.2 ++ [avg]))
    (List.replicate m.ndim 0, [])).map (·.2)

end NP
