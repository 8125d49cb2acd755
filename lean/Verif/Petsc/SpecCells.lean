import Verif.Petsc.ModelCells

/-!
# Specification: the cells of an unstructured mesh

The vertices of a cell are its coordinates cut into pieces of one coordinate per dimension.
-/

set_option autoImplicit false

namespace NP.Spec

/-- `vs` are the vertices of the local cell `c`: the coordinates that PETSc holds for it, one list per vertex. -/
def IsVertices {α : Type} (m : PlexCells α) (c : Nat) (vs : List (List α)) : Prop :=
  ∃ p cs, m.toPetsc[c]? = some p ∧ m.coords[p]? = some cs ∧ vs.flatten = cs ∧ ∀ v ∈ vs, v.length = m.ndim

/-- Every local cell is a PETSc cell with at least one vertex and all coordinates of each vertex. -/
structure PlexCellsOk {α : Type} (m : PlexCells α) : Prop where
  dim : 0 < m.ndim
  cells : ∀ p ∈ m.toPetsc, ∃ cs, m.coords[p]? = some cs ∧ m.ndim ∣ cs.length ∧ cs ≠ []

/-- `a` is the mean of the vertices `vs`. -/
def IsMean (ndim : Nat) (vs : List (List ℚ)) (a : List ℚ) : Prop :=
  a.length = ndim ∧ ∀ d < ndim, a[d]? = some ((vs.map fun v => (v[d]?).getD 0).sum / (vs.length : ℚ))

/-- The VTK cell made of the vertices `vs` of a cell in the plane: the points have a third coordinate of zero, triangles
have type 5 and quadrilaterals type 9. -/
structure IsVtkOfVertices (vs : List (List Int)) (v : VtkCell) : Prop where
  num : v.numPoints = vs.length
  points : v.points = vs.flatMap fun x => x ++ [0]
  triangle : vs.length = 3 → v.cellType = 5
  quadrilateral : vs.length = 4 → v.cellType = 9
  data : v.cellData = [] ∧ v.pointData = []

/-- `occ` is a placement of the points `pts` in the cells: all of them, each in the cell that `locate` says. -/
def Placed (locate : List ℚ → Nat) (pts : List (List ℚ)) (occ : List (List (List ℚ))) : Prop :=
  occ.flatten.Perm pts ∧ ∀ (c : Nat) ps, occ[c]? = some ps → ∀ x ∈ ps, locate x = c

end NP.Spec
