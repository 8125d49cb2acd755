import Verif.Boundary.ModelWall
import Verif.Mesh.SpecFace

/-!
# What the intersections with the walls are

The domain is the box with one corner at the origin and the extents `ext`. The path of a particle
is the straight line from `a` to `b`, with the point `a + s (b - a)` at the fraction `s` of it.
-/

set_option autoImplicit false

namespace NP.Spec

/-- The position is strictly inside of the domain. -/
def InsideDomain (ext a : List ℚ) : Prop :=
  ∀ (i : Nat) e, ext[i]? = some e → ∃ x, a[i]? = some x ∧ 0 < x ∧ x < e

/-- The position has all its components. -/
def HasComps (ext b : List ℚ) : Prop := ext.length ≤ b.length

/-- `p` is where the path from `a` to `b` leaves the domain, through side `f`: it is on the path,
on the plane of the side and, up to `tol`, in the domain; before it the path is inside of the
domain, up to `tol`, and after it the path is not inside of the domain. -/
def LeavesAt (ext : List ℚ) (tol : ℚ) (a b : List ℚ) (f : Nat) (p : List ℚ) : Prop :=
  ∃ s d up w, 0 ≤ s ∧ s ≤ 1 ∧ sideOf f = some (d, up) ∧ ext[d]? = some w ∧
    p.length = ext.length ∧ p[d]? = some (if up then w else 0) ∧
    (∀ (i : Nat) e x y z, ext[i]? = some e → a[i]? = some x → b[i]? = some y → p[i]? = some z →
      z = x + s * (y - x) ∧ -tol ≤ z ∧ z ≤ e + tol ∧
      ∀ s', 0 ≤ s' → s' < s → -tol < x + s' * (y - x) ∧ x + s' * (y - x) < e + tol) ∧
    ∀ x y, a[d]? = some x → b[d]? = some y → ∀ s', s < s' →
      if up then w ≤ x + s' * (y - x) else x + s' * (y - x) ≤ 0

end NP.Spec
