import Verif.Mesh.SpecFace
import Verif.Io.SpecVtk
import Verif.Mesh.ModelMeshVtk

/-!
# Specification: the cells of Cartesian meshes in unstructured grids

What VTK asks of the points of lines, quadrilaterals and hexahedra, and which points are the corners of a cell.
-/

set_option autoImplicit false

namespace NP.Spec

/-- The points `p` and `q` are different and joined by a line along one of the axes. -/
def AxisEdge (p q : List Int) : Prop := ∃ d : Nat, p[d]? ≠ q[d]? ∧ ∀ e : Nat, e ≠ d → p[e]? = q[e]?

/-- The points of a line (VTK type 3). -/
def IsVtkLine (l : List (List Int)) : Prop := ∃ p q, l = [p, q] ∧ AxisEdge p q

/-- The points of a quadrilateral (VTK type 9): four different points in order around it. -/
def IsVtkQuad (l : List (List Int)) : Prop :=
  ∃ p q r s, l = [p, q, r, s] ∧ l.Nodup ∧ AxisEdge p q ∧ AxisEdge q r ∧ AxisEdge r s ∧ AxisEdge s p

/-- The points of a hexahedron (VTK type 12): eight different points, the quadrilateral at the bottom, then the
one at the top, whose points are those opposite to the points at the bottom. -/
def IsVtkHex (l : List (List Int)) : Prop :=
  ∃ p0 p1 p2 p3 q0 q1 q2 q3, l = [p0, p1, p2, p3, q0, q1, q2, q3] ∧ l.Nodup ∧
    IsVtkQuad [p0, p1, p2, p3] ∧ IsVtkQuad [q0, q1, q2, q3] ∧
    AxisEdge p0 q0 ∧ AxisEdge p1 q1 ∧ AxisEdge p2 q2 ∧ AxisEdge p3 q3

/-- A cell of an unstructured grid made of the given points, without quantities, of a type that fits the points. -/
structure VtkShape (c : VtkCell) (pts : List (List Int)) : Prop where
  points : c.points = pts.flatten
  three : ∀ p ∈ pts, p.length = 3
  number : c.numPoints = pts.length
  shape : (c.cellType = 3 ∧ IsVtkLine pts) ∨ (c.cellType = 9 ∧ IsVtkQuad pts) ∨ (c.cellType = 12 ∧ IsVtkHex pts)
  cellData : c.cellData = []
  pointData : c.pointData = []

/-- The point `p` in space is a corner of the cell with coordinates `t` of a mesh with cells of width `w`; missing
coordinates of the mesh are zero. -/
def IsCorner (w : Int) (t p : List Int) : Prop :=
  p.length = 3 ∧ ∀ (d : Nat) (x : Int), p[d]? = some x → match t[d]? with
    | some i => x = i * w ∨ x = (i + 1) * w
    | none => x = 0

/-- The point is on the side `f` of the domain. -/
def OnPlane (m : CartMesh) (w : Int) (f : Nat) (p : List Int) : Prop :=
  ∃ d up c, sideOf f = some (d, up) ∧ (m.mh.dims.map (· * 2 ^ m.mh.order))[d]? = some c ∧
    p[d]? = some (if up then c * w else 0)

/-- The cell `c` of an unstructured grid is the cell of the mesh with coordinates `t`. -/
def IsVtkOfCell (w : Int) (t : List Int) (c : VtkCell) : Prop :=
  ∃ pts, VtkShape c pts ∧ (∀ p, p ∈ pts ↔ IsCorner w t p) ∧ pts.length = 2 ^ t.length

/-- The cell `c` of an unstructured grid is the face of the cell of the mesh with coordinates `t` on side `f`. -/
def IsVtkOfFace (m : CartMesh) (w : Int) (f : Nat) (t : List Int) (c : VtkCell) : Prop :=
  ∃ pts, VtkShape c pts ∧ (∀ p, p ∈ pts ↔ IsCorner w t p ∧ OnPlane m w f p) ∧ pts.length = 2 ^ (t.length - 1)

end NP.Spec
