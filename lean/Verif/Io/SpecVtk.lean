import Verif.Io.ModelVtk
import Verif.Petsc.SpecHalo

/-!
# Specification: reading VTKHDF files of unstructured grids

The reader follows the description of the file format by VTK: each rank wrote one partition. The points, cells
and connectivity of a partition follow those of the partitions before it, there is one more offset than cells in
each partition, offsets and connectivity count from the start of the partition.
-/

set_option autoImplicit false

namespace NP.Spec

/-- An entry of a dataset. -/
def vtkEntry {α : Type} (d : List (Option α)) (i : Nat) : Option α := (d[i]?).join

/-- The sum of the first entries of a dataset. -/
def sumBefore (d : List (Option Nat)) (p : Nat) : Option Nat := ((d.take p).mapM id).map List.sum

/-- Cell `i` of partition `p`. -/
def readVtkCell (f : VtkFile) (p i : Nat) : Option VtkCell :=
  (vtkEntry f.numberOfCells p).bind fun nc =>
  if i < nc then
    (sumBefore f.numberOfCells p).bind fun c0 =>
    (sumBefore f.numberOfPoints p).bind fun p0 =>
    (sumBefore f.numberOfConnectivityIds p).bind fun k0 =>
    (vtkEntry f.offsets (c0 + p + i)).bind fun a =>
    (vtkEntry f.offsets (c0 + p + (i + 1))).bind fun b =>
    ((List.range (b - a)).mapM fun j => vtkEntry f.connectivity (k0 + (a + j))).bind fun ids =>
    (vtkEntry f.types (c0 + i)).bind fun ty =>
    (ids.mapM fun q => (List.range 3).mapM fun x => vtkEntry f.points ((p0 + q) * 3 + x)).bind fun pts =>
    (f.cellData.mapM fun e => (vtkEntry e.2 (c0 + i)).map fun v => (e.1, v)).bind fun cd =>
    (f.pointData.mapM fun e => (ids.mapM fun q => vtkEntry e.2 (p0 + q)).map fun v => (e.1, v)).bind fun pd =>
    some ⟨ids.length, pts.flatten, ty, cd, pd⟩
  else none

/-- A cell with three coordinates per point, with the given quantities and one value per point of each. -/
structure VtkCellOk (P C : List Int) (c : VtkCell) : Prop where
  points : c.points.length = c.numPoints * 3
  pointKeys : c.pointData.map (·.1) = P
  cellKeys : c.cellData.map (·.1) = C
  lengths : ∀ e ∈ c.pointData, e.2.length = c.numPoints

/-- The arguments of a rank: proper cells, and names of quantities which they have; all names if the rank has no
cells. -/
structure VtkRankOk (P C : List Int) (r : VtkRank) : Prop where
  cells : ∀ c ∈ r.cells, VtkCellOk P C c
  pointKeys : ∀ k ∈ r.pointKeys, k ∈ P
  cellKeys : ∀ k ∈ r.cellKeys, k ∈ C
  pointAll : r.cells = [] → ∀ k ∈ P, k ∈ r.pointKeys
  cellAll : r.cells = [] → ∀ k ∈ C, k ∈ r.cellKeys

end NP.Spec
