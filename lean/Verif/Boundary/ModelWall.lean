import Verif.Mesh.ModelFace
import Verif.Sub.Model

/-!
# Model: intersections of trajectories with the walls of a Cartesian mesh

Models `include/neso_particles/cartesian_mesh/cartesian_trajectory_intersection.hpp` and the two
functions of `include/neso_particles/device_functions.hpp` it uses. `REAL` is the rational
numbers (all operations of this code are rational). Integers are unbounded.
-/

set_option autoImplicit false

namespace NP

/-! ## One trajectory -/

/-- `line_segment_intersection_2d_x_axis_aligned`, device_functions.hpp:250-272: the result and the
values written to `xi` and `yi`. -/
def lineHit (xa ya xb yb x0 y0 x1 tol : ℚ) : Bool × ℚ × ℚ :=
  let diffA := ya - y0
  let diffB := yb - y0
  let isCrossed := decide (0 ≥ diffA * diffB)
  let absDiffA := |diffA|
  let absDiffB := |diffB|
  let width := absDiffA + absDiffB
  let colocated := decide (width = 0)
  let ratio := if !colocated then absDiffA / width else 0
  let xi := xa + ratio * (xb - xa)
  let inBounds := (decide (x0 - tol ≤ xi) && decide (xi ≤ x1 + tol)) ||
    (decide (x1 - tol ≤ xi) && decide (xi ≤ x0 + tol))
  (isCrossed && !colocated && inBounds, xi, y0)

/-- `plane_intersection_3d_xy_plane_aligned`, device_functions.hpp:336-360: the result and the values
written to `xi`, `yi` and `zi`. -/
def planeHit (ax ay az bx by' bz p0x p0y p0z p1x p2y tol : ℚ) : Bool × ℚ × ℚ × ℚ :=
  let diffA := az - p0z
  let diffB := bz - p0z
  let isCrossed := decide (0 ≥ diffA * diffB)
  let absDiffA := |diffA|
  let absDiffB := |diffB|
  let width := absDiffA + absDiffB
  let colocated := decide (width = 0)
  let ratio := if !colocated then absDiffA / width else 0
  let xi := ax + ratio * (bx - ax)
  let yi := ay + ratio * (by' - ay)
  let inBoundsX := (decide (p0x - tol ≤ xi) && decide (xi ≤ p1x + tol)) ||
    (decide (p1x - tol ≤ xi) && decide (xi ≤ p0x + tol))
  let inBoundsY := (decide (p0y - tol ≤ yi) && decide (yi ≤ p2y + tol)) ||
    (decide (p2y - tol ≤ yi) && decide (yi ≤ p0y + tol))
  (isCrossed && !colocated && inBoundsX && inBoundsY, xi, yi, p0z)

/-- The selector kernels for the leaving particles, cartesian_trajectory_intersection.hpp:96-115. -/
def wallDeparts (ext p : List ℚ) : Option Bool :=
  match ext with
  | [e0, e1] =>
    (rd p 0).bind fun p0 => (rd p 1).bind fun p1 =>
    some (decide (p0 ≤ 0) || decide (p0 ≥ e0) || decide (p1 ≤ 0) || decide (p1 ≥ e1))
  | [e0, e1, e2] =>
    (rd p 0).bind fun p0 => (rd p 1).bind fun p1 => (rd p 2).bind fun p2 =>
    some (decide (p0 ≤ 0) || decide (p0 ≥ e0) || decide (p1 ≤ 0) || decide (p1 ≥ e1) ||
      decide (p2 ≤ 0) || decide (p2 ≥ e2))
  | _ => none

/-- The kernel for two dimensions, cartesian_trajectory_intersection.hpp:162-203: whether an
intersection was found, the point and the side. -/
def wallHit2 (e0 e1 tol : ℚ) (p pp : List ℚ) : Option (Bool × List ℚ × Int) :=
  (rd p 0).bind fun p0 => (rd p 1).bind fun p1 =>
  (rd pp 0).bind fun pp0 => (rd pp 1).bind fun pp1 =>
  let base0 := decide (p1 - tol ≤ 0)
  let edges0 : Int := if base0 then 0 else 2
  let h0 := lineHit pp0 pp1 p0 p1 0 (if base0 then 0 else e1) e0 tol
  let exists0 := h0.1
  let xi0 := h0.2.1
  let yi0 := h0.2.2
  let base1 := decide (p0 - tol ≤ 0)
  let edges1 : Int := if base1 then 3 else 1
  let h1 := lineHit pp1 pp0 p1 p0 0 (if base1 then 0 else e0) e1 tol
  let exists1 := h1.1
  let yi1 := h1.2.1
  let xi1 := h1.2.2
  let xi := if exists0 then xi0 else xi1
  let yi := if exists0 then yi0 else yi1
  let edge := if exists0 then edges0 else edges1
  some (exists0 || exists1, [xi, yi], edge)

/-- One iteration of the loop over the three tests, cartesian_trajectory_intersection.hpp:313-321;
a test is its result, its point and its side. -/
def wallPick (s t : Bool × List ℚ × Int) : Bool × List ℚ × Int :=
  (s.1 || t.1, if t.1 then t.2.1 else s.2.1, if t.1 then t.2.2 else s.2.2)

/-- The kernel for three dimensions, cartesian_trajectory_intersection.hpp:231-321. -/
def wallHit3 (e0 e1 e2 tol : ℚ) (p pp : List ℚ) : Option (Bool × List ℚ × Int) :=
  (rd p 0).bind fun p0 => (rd p 1).bind fun p1 => (rd p 2).bind fun p2 =>
  (rd pp 0).bind fun pp0 => (rd pp 1).bind fun pp1 => (rd pp 2).bind fun pp2 =>
  let base0 := decide (p2 - tol ≤ 0)
  let h0 := planeHit pp0 pp1 pp2 p0 p1 p2 0 0 (if base0 then 0 else e2) e0 e1 tol
  let t0 : Bool × List ℚ × Int := (h0.1, [h0.2.1, h0.2.2.1, h0.2.2.2], if base0 then 4 else 5)
  let base1 := decide (p1 - tol ≤ 0)
  let h1 := planeHit pp0 pp2 pp1 p0 p2 p1 0 0 (if base1 then 0 else e1) e0 e2 tol
  let t1 : Bool × List ℚ × Int := (h1.1, [h1.2.1, h1.2.2.2, h1.2.2.1], if base1 then 0 else 2)
  let base2 := decide (p0 - tol ≤ 0)
  let h2 := planeHit pp1 pp2 pp0 p1 p2 p0 0 0 (if base2 then 0 else e0) e1 e2 tol
  let t2 : Bool × List ℚ × Int := (h2.1, [h2.2.2.2, h2.2.1, h2.2.2.1], if base2 then 3 else 1)
  some ([t0, t1, t2].foldl wallPick (false, [0, 0, 0], -1))

/-- The kernel for the number of dimensions of the mesh, cartesian_trajectory_intersection.hpp:146-335. -/
def wallHit (ext : List ℚ) (tol : ℚ) (p pp : List ℚ) : Option (Bool × List ℚ × Int) :=
  match ext with
  | [e0, e1] => wallHit2 e0 e1 tol p pp
  | [e0, e1, e2] => wallHit3 e0 e1 e2 tol p pp
  | _ => none

end NP
