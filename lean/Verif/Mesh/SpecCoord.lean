import Mathlib.Analysis.Convex.Hull
import Mathlib.Data.Real.Basic

/-!
# Specification: coordinates in triangles and quadrilaterals
-/

set_option autoImplicit false

namespace NP.Spec

/-- Twice the signed area of a triangle. -/
def turnR (a b c : ℝ × ℝ) : ℝ := (b.1 - a.1) * (c.2 - a.2) - (b.2 - a.2) * (c.1 - a.1)

/-- The corners of a strictly convex quadrilateral in order, in either direction. -/
def ConvexQuad (v0 v1 v2 v3 : ℝ × ℝ) : Prop :=
  (0 < turnR v0 v1 v2 ∧ 0 < turnR v1 v2 v3 ∧ 0 < turnR v2 v3 v0 ∧ 0 < turnR v3 v0 v1) ∨
    (turnR v0 v1 v2 < 0 ∧ turnR v1 v2 v3 < 0 ∧ turnR v2 v3 v0 < 0 ∧ turnR v3 v0 v1 < 0)

/-- The bilinear map which takes the corners `(-1,-1) (1,-1) (1,1) (-1,1)` of the reference square
to the corners of the quadrilateral. -/
noncomputable def bilinear (v0 v1 v2 v3 : ℝ × ℝ) (e : ℝ × ℝ) : ℝ × ℝ :=
  ((1 - e.1) * (1 - e.2) / 4) • v0 + ((1 + e.1) * (1 - e.2) / 4) • v1 +
    ((1 + e.1) * (1 + e.2) / 4) • v2 + ((1 - e.1) * (1 + e.2) / 4) • v3

/-- The reference square. -/
def RefSquare (e : ℝ × ℝ) : Prop := -1 ≤ e.1 ∧ e.1 ≤ 1 ∧ -1 ≤ e.2 ∧ e.2 ≤ 1

/-- The two sides from the lower corners to the upper corners reach at least as far in `y` as in
`x`. -/
def Steep (v0 v1 v2 v3 : ℝ × ℝ) : Prop :=
  max |v3.1 - v0.1| |v2.1 - v1.1| ≤ max |v3.2 - v0.2| |v2.2 - v1.2|

/-- The vector from the point `e0` of the lower side to the point `e0` of the upper side (times
two). -/
noncomputable def across (v0 v1 v2 v3 : ℝ × ℝ) (e0 : ℝ) : ℝ × ℝ :=
  (1 - e0) • (v3 - v0) + (1 + e0) • (v2 - v1)

end NP.Spec
