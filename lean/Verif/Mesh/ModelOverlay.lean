import Verif.Mesh.ModelMap
import Verif.Mesh.ModelGrid

/-!
# The overlay mesh

Model of `src/external_interfaces/common/overlay_cartesian_mesh.cpp` and
`include/neso_particles/external_interfaces/common/overlay_cartesian_mesh.hpp`. Real numbers are
exact and integers unbounded.
-/

set_option autoImplicit false

namespace NP

/-- `OverlayCartesianMesh`; the number of dimensions is the length of the lists. -/
structure OverlayMesh where
  /-- `origin`. -/
  origin : List ℚ
  /-- `extents`. -/
  extents : List ℚ
  /-- `cell_counts`. -/
  counts : List Int

/-- The constructor, src/external_interfaces/common/overlay_cartesian_mesh.cpp:60-98. -/
def OverlayMesh.create (ndim : Nat) (origin extents : List ℚ) (counts : List Int) :
    Option OverlayMesh :=
  if origin.length = ndim ∧ extents.length = ndim ∧ counts.length = ndim ∧
      (∀ e ∈ extents, e > 0) ∧ ∀ c ∈ counts, c > 0 then some ⟨origin, extents, counts⟩
  else none

/-- One dimension of the mesh: origin, extent, cell count. -/
structure OverlayDim where
  /-- `origin.at(dim)`. -/
  origin : ℚ
  /-- `extents.at(dim)`. -/
  extent : ℚ
  /-- `cell_counts.at(dim)`. -/
  count : Int

/-- `cell_widths.at(dim)`. -/
def OverlayDim.width (d : OverlayDim) : ℚ := d.extent / d.count

/-- `inverse_cell_widths.at(dim)`. -/
def OverlayDim.invWidth (d : OverlayDim) : ℚ := 1 / d.width

/-- The values of one dimension, none if there is no such dimension. -/
def OverlayMesh.dim (m : OverlayMesh) (d : Nat) : Option OverlayDim :=
  (rd m.origin d).bind fun o => (rd m.extents d).bind fun e => (rd m.counts d).bind fun c =>
  some ⟨o, e, c⟩

/-- `OverlayCartesianMeshMapper::get_cell_in_dimension`,
include/neso_particles/external_interfaces/common/overlay_cartesian_mesh.hpp:32-39. -/
def OverlayDim.cell (d : OverlayDim) (point : ℚ) : Int :=
  let c0 := truncZ ((point - d.origin) * d.invWidth)
  let c1 := if c0 < 0 then 0 else c0
  if c1 ≥ d.count then d.count - 1 else c1

/-- `OverlayCartesianMesh::get_cell_in_dimension`,
src/external_interfaces/common/overlay_cartesian_mesh.cpp:122-138. -/
def OverlayMesh.getCellInDimension (m : OverlayMesh) (d : Nat) (point : ℚ) : Option Int :=
  (m.dim d).bind fun x =>
  if point ≥ x.origin - 1 / 100000000 ∧ point ≤ x.origin + x.extent + 1 / 100000000 then
    some (x.cell point) else none

/-- `std::numeric_limits<REAL>::epsilon()`. -/
def epsReal : ℚ := 1 / 4503599627370496

/-- `get_cell_in_dimension_lower`,
src/external_interfaces/common/overlay_cartesian_mesh.cpp:5-22. -/
def OverlayDim.cellLower (d : OverlayDim) (point : ℚ) : Int :=
  let shifted := point - d.origin
  let c0 := truncZ (shifted * d.invWidth)
  let c1 := if c0 * d.width ≥ shifted - epsReal then c0 - 1 else c0
  let c2 := if c1 < 0 then 0 else c1
  if c2 ≥ d.count then d.count - 1 else c2

/-- `get_cell_in_dimension_upper`,
src/external_interfaces/common/overlay_cartesian_mesh.cpp:24-42. -/
def OverlayDim.cellUpper (d : OverlayDim) (point : ℚ) : Int :=
  let shifted := point - d.origin
  let c0 := truncZ (shifted * d.invWidth)
  let c1 := if (c0 + 1) * d.width ≤ shifted + epsReal then c0 + 1 else c0
  let c2 := if c1 < 0 then 0 else c1
  (if c2 ≥ d.count then d.count - 1 else c2) + 1

/-- `get_linear_cell_index`,
include/neso_particles/external_interfaces/common/overlay_cartesian_mesh.hpp:49-56 and 153-160:
the same loop as for the mesh hierarchy. -/
def OverlayMesh.linearIndex (m : OverlayMesh) (t : List Int) : Option Int :=
  radixToLinear m.counts t

/-- `valid_linear_cell_index`,
include/neso_particles/external_interfaces/common/overlay_cartesian_mesh.hpp:64-72. -/
def OverlayMesh.validIndex (m : OverlayMesh) (t : List Int) : Option Bool :=
  runItems (fun d valid => (rd t d).bind fun x => (rd m.counts d).bind fun n =>
    some (valid && (decide (x > -1) && decide (x < n)))) (List.range m.counts.length) true

/-- `get_cell_count`, src/external_interfaces/common/overlay_cartesian_mesh.cpp:140-146. -/
def OverlayMesh.cellCount (m : OverlayMesh) : Int := m.counts.foldl (· * ·) 1

/-- `get_all_cells`, src/external_interfaces/common/overlay_cartesian_mesh.cpp:44-58, from
dimension `dim`; the ranges of the remaining dimensions are given. The vectors `index` and
`cells` are the state. -/
def OverlayMesh.getAllCells (m : OverlayMesh) : Nat → List (Int × Int) → List Int × List Int →
    Option (List Int × List Int)
  | _, [], _ => none
  | dim, [r], s => runItems (fun ix s => (st s.1 dim ix).bind fun index =>
      (m.linearIndex index).bind fun i => some (index, s.2 ++ [i])) (intRange r.1 r.2) s
  | dim, r :: r' :: rs, s => runItems (fun ix s => (st s.1 dim ix).bind fun index =>
      m.getAllCells (dim + 1) (r' :: rs) (index, s.2)) (intRange r.1 r.2) s

/-- The ranges of cells, src/external_interfaces/common/overlay_cartesian_mesh.cpp:155-163. -/
def OverlayMesh.cellRanges (m : OverlayMesh) (lower upper : List ℚ) : Option (List (Int × Int)) :=
  forAllM (fun d => (rd lower d).bind fun lo => (rd upper d).bind fun hi => (m.dim d).bind fun x =>
    some (x.cellLower lo, x.cellUpper hi)) (List.range m.counts.length)

/-- `get_intersecting_cells`,
src/external_interfaces/common/overlay_cartesian_mesh.cpp:148-167. The vector `index` has two
entries. -/
def OverlayMesh.intersectingCells (m : OverlayMesh) (lower upper : List ℚ) : Option (List Int) :=
  (m.cellRanges lower upper).bind fun rs =>
  (m.getAllCells 0 rs ([0, 0], [])).bind fun s => some s.2

/-- `std::max_element` of the cell widths: the index of the first greatest element. -/
def maxElementQ : List ℚ → Option Nat
  | [] => none
  | x :: xs => match maxElementQ xs with
    | none => some 0
    | some i => if (xs[i]?).getD x > x then some (i + 1) else some 0

/-- One iteration of the loop of `create_overlay_mesh`,
src/external_interfaces/common/overlay_cartesian_mesh.cpp:198-205. -/
def overlayDouble (extents : List ℚ) (counts : List Int) : Option (List Int) :=
  (maxElementQ (List.zipWith (fun (e : ℚ) (c : Int) => e / c) extents counts)).bind fun i =>
  (rd counts i).bind fun c => st counts i (c * 2)

/-- The loop of `create_overlay_mesh`, with at most `fuel` iterations; none if it has not ended
by then. -/
def overlayLoop (extents : List ℚ) (ncells : Int) : Nat → List Int → Option (List Int)
  | 0, counts => if counts.foldl (· * ·) 1 < ncells then none else some counts
  | fuel + 1, counts => if counts.foldl (· * ·) 1 < ncells then
      (overlayDouble extents counts).bind (overlayLoop extents ncells fuel)
    else some counts

/-- `create_overlay_mesh`,
src/external_interfaces/common/overlay_cartesian_mesh.cpp:169-210. -/
def createOverlayMesh (fuel ndim : Nat) (lower upper : List ℚ) (ncells : Int) :
    Option OverlayMesh :=
  (forAllM (fun d => rd lower d) (List.range ndim)).bind fun origin =>
  (forAllM (fun d => (rd lower d).bind fun l => (rd upper d).bind fun u => some (u - l))
    (List.range ndim)).bind fun extents =>
  (overlayLoop extents ncells fuel (List.replicate ndim 1)).bind fun counts =>
  OverlayMesh.create ndim origin extents counts

end NP
