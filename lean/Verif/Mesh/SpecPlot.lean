import Verif.Mesh.ModelPlot
import Verif.Mesh.Spec

/-!
# Specification: plots of the cells of a mesh hierarchy

A reader of legacy VTK files with lines, and the edges of a cell.
-/

set_option autoImplicit false

namespace NP.Spec

/-- The lines in the CELLS section: the number of points, which is two, then the points. -/
def parseLines : List Int → Option (List (Int × Int))
  | [] => some []
  | 2 :: a :: b :: rest => (parseLines rest).map fun l => (a, b) :: l
  | _ => none

/-- A point of the file. -/
def plotPoint (f : PlotFile) (i : Int) : Option (List ℚ) := if 0 ≤ i then f.points[i.toNat]? else none

/-- The line segments of a legacy VTK file whose cells are lines (type 3), if the announced sizes are right. -/
def readPlot (f : PlotFile) : Option (List (List ℚ × List ℚ)) :=
  if f.npoints = f.points.length ∧ f.nints = f.ints.length ∧ f.ncells = f.types.length ∧ ∀ t ∈ f.types, t = 3 then
    (parseLines f.ints).bind fun es =>
    if es.length = f.ncells then
      es.mapM fun e => (plotPoint f e.1).bind fun p => (plotPoint f e.2).map fun q => (p, q)
    else none
  else none

/-- The segment from `p` to `q` is an edge of the cell with coordinates `x` of a grid of cubes of the given width:
along one dimension it goes from the lower to the upper end of the cell, in the others it is at the lower or the
upper end; coordinates that the grid does not have are zero. -/
def IsCellEdge (width : ℚ) (origin : List ℚ) (x : List Int) (p q : List ℚ) : Prop :=
  p.length = 3 ∧ q.length = 3 ∧ ∃ d < x.length, ∀ e < 3, match (x[e]? : Option Int), (origin[e]? : Option ℚ) with
    | some i, some o =>
      if e = d then p[e]? = some (i * width + o) ∧ q[e]? = some ((i + 1) * width + o)
      else q[e]? = p[e]? ∧ (p[e]? = some (i * width + o) ∨ p[e]? = some ((i + 1) * width + o))
    | _, _ => p[e]? = some 0 ∧ q[e]? = some 0

/-- The file shows exactly the edges of the cells in `P`, its points are different and each is the end of a line. -/
structure IsPlotOf (f : PlotFile) (width : ℚ) (origin : List ℚ) (P : List Int → Prop) : Prop where
  /-- The segments. -/
  lines : ∃ segs, readPlot f = some segs ∧
    (∀ p q, (p, q) ∈ segs ↔ ∃ x, P x ∧ IsCellEdge width origin x p q) ∧
    ∀ p ∈ f.points, ∃ s ∈ segs, p = s.1 ∨ p = s.2
  /-- No point twice. -/
  points : f.points.Nodup

/-- A mesh hierarchy in at most three dimensions with an origin. -/
structure ValidPlot (mh : MeshHierarchy) (g : PlotGeom) : Prop where
  mesh : ValidMesh mh
  ndim : mh.dims.length ≤ 3
  origin : g.origin.length = mh.dims.length
  extent : 0 < g.extent

end NP.Spec
