import Verif.Mesh.Spec
import Verif.Mesh.ModelMap

/-!
# What the mapping properties say
-/

set_option autoImplicit false

namespace NP.Spec

/-- A mesh with an origin for each dimension and a positive cell width. -/
def ValidGeom (g : MeshGeom) : Prop :=
  ValidMesh g.mh ∧ g.origin.length = g.mh.dims.length ∧ 0 < g.width

/-- The width of the fine cells: there are `2 ^ order` per coarse cell. -/
def fineWidth (g : MeshGeom) : ℚ := g.width / 2 ^ g.mh.order

/-- In each dimension the position is between the lower and the upper end of the domain,
ends included. -/
def InDomain (g : MeshGeom) (p : List ℚ) : Prop :=
  p.length = g.mh.dims.length ∧
  ∀ (d : Nat) (n : Int) (o x : ℚ), g.mh.dims[d]? = some n → g.origin[d]? = some o →
    p[d]? = some x → o ≤ x ∧ x ≤ o + n * g.width

/-- The fine cell with coordinates `y` contains the position: in each dimension the position
is in the half open interval of the cell, or it is at the upper end of the domain and the
cell is the last one. -/
def CellContains (g : MeshGeom) (y : List Int) (p : List ℚ) : Prop :=
  ∀ (d : Nat) (n i : Int) (o x : ℚ), g.mh.dims[d]? = some n → g.origin[d]? = some o →
    p[d]? = some x → y[d]? = some i →
    (o + i * fineWidth g ≤ x ∧ x < o + (i + 1) * fineWidth g) ∨
    (x = o + n * g.width ∧ i = n * 2 ^ g.mh.order - 1)

end NP.Spec
