import Verif.Common.Kernel
import Verif.Petsc.ModelHalo

/-!
# Model: VTKHDF files of unstructured grids

Models `VTKHDF::write`, `src/external_interfaces/vtk/vtk.cpp:74-211`, with `write_dataset` and
`write_dataset_2d`, `include/neso_particles/external_interfaces/vtk/vtk.hpp:63-145`.

Simplifications. Names of quantities are integers and maps are ordered by them. Coordinates and values of
quantities are only copied, they are integers here. Numbers of points are naturals. All ranks make the collective
calls in step; if they would create datasets with different names the program fails (HDF5 requires the same
calls on all ranks). `MPI_Exscan` leaves the buffer of rank 0 as it was. An entry of a dataset that no rank wrote
is `none`. The version and type attributes and the null communicator are left out.
-/

set_option autoImplicit false

namespace NP

/-- `UnstructuredCell`, vtk.hpp:34-49. -/
structure VtkCell where
  numPoints : Nat
  points : List Int
  cellType : Nat
  cellData : OMap Int
  pointData : OMap (List Int)
  deriving DecidableEq

/-- The arguments of `write` on one rank. -/
structure VtkRank where
  cells : List VtkCell
  pointKeys : List Int
  cellKeys : List Int

/-- The local variables of `write` that the loop over the cells fills, vtk.cpp:83-99. -/
structure VtkLocal where
  npoint : Nat
  ncell : Nat
  points : List Int
  types : List Nat
  connectivity : List Nat
  offsets : List Nat
  pointData : OMap (List Int)
  cellData : OMap (List Int)
  pointIndex : Nat

/-- `m[k].insert(m[k].end(), d.begin(), d.end())`: the access makes an empty vector if there is none. -/
def vtkInsert (m : OMap (List Int)) (k : Int) (d : List Int) : OMap (List Int) :=
  omPut m k ((omGet m k).getD [] ++ d)

/-- The state before the loop over the cells, vtk.cpp:83-102. -/
def vtkStart (r : VtkRank) : VtkLocal :=
  ⟨0, 0, [], [], [], [0], r.pointKeys.foldl (fun m k => omPut m k []) [],
    r.cellKeys.foldl (fun m k => omPut m k []) [], 0⟩

/-- A pass of the loop over the cells, vtk.cpp:103-131. -/
def vtkCellStep (ex : VtkCell) (s : VtkLocal) : Option VtkLocal :=
  if ex.points.length = ex.numPoints * 3 then
    (runItems (fun (nd : Int × List Int) m =>
      if nd.2.length = ex.numPoints then some (vtkInsert m nd.1 nd.2) else none)
      ex.pointData s.pointData).bind fun pd =>
    (forLoop 0 ex.numPoints (fun _ (t : List Nat × Nat) => some (t.1 ++ [t.2], t.2 + 1))
      (s.connectivity, s.pointIndex)).bind fun c =>
    some {
      npoint := s.npoint + ex.numPoints
      ncell := s.ncell + 1
      points := s.points ++ ex.points
      types := s.types ++ [ex.cellType]
      connectivity := c.1
      offsets := s.offsets ++ [c.2]
      pointData := pd
      cellData := ex.cellData.foldl (fun m nd => vtkInsert m nd.1 [nd.2]) s.cellData
      pointIndex := c.2 }
  else none

/-- The loop over the cells. -/
def vtkGather (r : VtkRank) : Option VtkLocal := runItems vtkCellStep r.cells (vtkStart r)

/-- `MPI_Exscan` of the counts of all ranks into zeros, vtk.cpp:136-139. -/
def vtkExscan (counts : List Nat) : List Nat :=
  (List.range counts.length).map fun r => if r = 0 then 0 else (counts.take r).sum

/-- The sum that the last rank broadcasts, vtk.cpp:140-143. -/
def vtkGlobal (counts : List Nat) : Option Nat :=
  (rd (vtkExscan counts) (counts.length - 1)).bind fun o => (rd counts (counts.length - 1)).bind fun c => some (o + c)

/-- `write_dataset` on all ranks, vtk.hpp:108-145: a dataset of the global size, in which each rank writes its
data at its offset, in any order. -/
def vtkDataset {α : Type} (sch : Sched) (global : Nat) (offsets : List Nat) (data : List (List α)) :
    Option (List (Option α)) :=
  runItems (fun r m => (rd data r).bind fun d => (rd offsets r).bind fun o => stRange m o (d.map some))
    (sch.order (List.range data.length)) (List.replicate global none)

/-- `write_dataset_2d` on all ranks, vtk.hpp:63-106, with `ncomp` columns; rows are stored one after the other. -/
def vtkDataset2 {α : Type} (sch : Sched) (global : Nat) (offsets locals : List Nat) (ncomp : Nat)
    (data : List (List α)) : Option (List (Option α)) :=
  if locals.map (· * ncomp) = data.map List.length then
    vtkDataset sch (global * ncomp) (offsets.map (· * ncomp)) data
  else none

/-- The loops over the quantities, vtk.cpp:196-206: the names on all ranks must be the same. -/
def vtkKeyed (sch : Sched) (global : Nat) (offsets : List Nat) (maps : List (OMap (List Int))) :
    Option (OMap (List (Option Int))) :=
  (rd maps 0).bind fun m0 =>
  if maps.all (fun m => m.map (·.1) == m0.map (·.1)) then
    m0.mapM fun e => (maps.mapM fun m => omGet m e.1).bind fun data =>
      (vtkDataset sch global offsets data).bind fun d => some (e.1, d)
  else none

/-- The datasets of a VTKHDF file of an unstructured grid. -/
structure VtkFile where
  points : List (Option Int)
  numberOfPoints : List (Option Nat)
  numberOfCells : List (Option Nat)
  types : List (Option Nat)
  connectivity : List (Option Nat)
  numberOfConnectivityIds : List (Option Nat)
  offsets : List (Option Nat)
  pointData : OMap (List (Option Int))
  cellData : OMap (List (Option Int))
  deriving DecidableEq

/-- `VTKHDF` on all ranks: is the dataset type that of unstructured grids, and what was written. -/
structure VtkWriter where
  isGrid : Bool
  file : Option VtkFile
  deriving DecidableEq

/-- `write` on all ranks, vtk.cpp:74-211. Datasets that exist cannot be created again. -/
def VtkWriter.write (sch : Sched) (w : VtkWriter) (ranks : List VtkRank) : Option VtkWriter :=
  if w.isGrid = true ∧ w.file = none then
    (ranks.mapM vtkGather).bind fun ls =>
    let size := ls.length
    let npoints := ls.map (·.npoint)
    let ncells := ls.map (·.ncell)
    let ncon := ls.map (·.connectivity.length)
    let noff := ls.map (fun l => l.ncell + 1)
    (vtkGlobal npoints).bind fun npointGlobal =>
    (vtkGlobal ncells).bind fun ncellGlobal =>
    (vtkGlobal ncon).bind fun nconGlobal =>
    (vtkGlobal noff).bind fun noffGlobal =>
    if ls.map (·.offsets.length) = noff then
      (vtkDataset2 sch npointGlobal (vtkExscan npoints) npoints 3 (ls.map (·.points))).bind fun points =>
      (vtkDataset sch size (List.range size) (ls.map fun l => [l.npoint])).bind fun numberOfPoints =>
      (vtkDataset sch size (List.range size) (ls.map fun l => [l.ncell])).bind fun numberOfCells =>
      (vtkDataset sch ncellGlobal (vtkExscan ncells) (ls.map (·.types))).bind fun types =>
      (vtkDataset sch nconGlobal (vtkExscan ncon) (ls.map (·.connectivity))).bind fun connectivity =>
      (vtkDataset sch size (List.range size) (ls.map fun l => [l.connectivity.length])).bind fun numberOfConnectivityIds =>
      (vtkDataset sch noffGlobal (vtkExscan noff) (ls.map (·.offsets))).bind fun offsets =>
      (vtkKeyed sch npointGlobal (vtkExscan npoints) (ls.map (·.pointData))).bind fun pointData =>
      (vtkKeyed sch ncellGlobal (vtkExscan ncells) (ls.map (·.cellData))).bind fun cellData =>
      some { w with file := some ⟨points, numberOfPoints, numberOfCells, types, connectivity,
        numberOfConnectivityIds, offsets, pointData, cellData⟩ }
    else none
  else none

end NP
