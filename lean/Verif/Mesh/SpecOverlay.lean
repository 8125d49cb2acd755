import Verif.Mesh.SpecMap
import Verif.Mesh.ModelOverlay

/-!
# What the properties of the overlay mesh say
-/

set_option autoImplicit false

namespace NP.Spec

/-- A mesh the constructor accepts, with at least one dimension. -/
def ValidOverlay (m : OverlayMesh) : Prop :=
  m.counts ≠ [] ∧ OverlayMesh.create m.counts.length m.origin m.extents m.counts = some m

/-- In each dimension the closed interval from `o + i w` to `o + (i + 1) w` of the cell with
coordinates `t` comes within `tol` of the interval from `lower` to `upper`. -/
def BoxMeets (m : OverlayMesh) (tol : ℚ) (lower upper : List ℚ) (t : List Int) : Prop :=
  ∀ (d : Nat) (o e lo hi : ℚ) (c i : Int), m.origin[d]? = some o → m.extents[d]? = some e →
    m.counts[d]? = some c → lower[d]? = some lo → upper[d]? = some hi → t[d]? = some i →
    lo ≤ o + (i + 1) * (e / c) + tol ∧ o + i * (e / c) ≤ hi + tol

/-- The box is in the mesh. -/
def BoxInside (m : OverlayMesh) (lower upper : List ℚ) : Prop :=
  ∀ (d : Nat) (o e lo hi : ℚ), m.origin[d]? = some o → m.extents[d]? = some e →
    lower[d]? = some lo → upper[d]? = some hi → o ≤ lo ∧ lo ≤ hi ∧ hi ≤ o + e

end NP.Spec
