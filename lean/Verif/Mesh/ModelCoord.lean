import Mathlib.Analysis.SpecialFunctions.Complex.Arg
import Mathlib.Analysis.SpecialFunctions.Sqrt

/-!
# Model: coordinate mappings of cells and of the torus

Models `include/neso_particles/external_interfaces/common/coordinate_mapping.hpp`. Numbers are
real numbers; `Kernel::fma(a, b, c)` is `a * b + c`, `Kernel::atan2(y, x)` is the argument of
`x + i y`. A value that is not a number, or infinite, is `none`.
-/

set_option autoImplicit false

namespace NP

noncomputable section

/-- A division; a zero divisor does not give a number. -/
def fdiv (a b : ℝ) : Option ℝ := if b = 0 then none else some (a / b)

/-- `triangle_cartesian_to_barycentric`,
include/neso_particles/external_interfaces/common/coordinate_mapping.hpp:23-38. -/
def triCartToBary (x1 y1 x2 y2 x3 y3 x y : ℝ) : Option (ℝ × ℝ × ℝ) :=
  (fdiv 1 (x1 * (y2 - y3) + x2 * (y3 - y1) + x3 * (y1 - y2))).bind fun scaling =>
  some (scaling * ((x2 * y3 + -x3 * y2) + ((y2 - y3) * x + (x3 - x2) * y)),
    scaling * ((x3 * y1 + -x1 * y3) + ((y3 - y1) * x + (x1 - x3) * y)),
    scaling * ((x1 * y2 + -x2 * y1) + ((y1 - y2) * x + (x2 - x1) * y)))

/-- `triangle_barycentric_to_cartesian`,
include/neso_particles/external_interfaces/common/coordinate_mapping.hpp:302-310. -/
def triBaryToCart (x1 y1 x2 y2 x3 y3 l1 l2 l3 : ℝ) : ℝ × ℝ :=
  ((l1 * x1 + l2 * x2) + l3 * x3, (l1 * y1 + l2 * y2) + l3 * y3)

/-- `quad_collapsed_to_barycentric`,
include/neso_particles/external_interfaces/common/coordinate_mapping.hpp:50-63. -/
def quadCollToBary (eta0 eta1 : ℝ) : ℝ × ℝ × ℝ × ℝ :=
  let etat0 := max (-1) (min 1 eta0)
  let etat1 := max (-1) (min 1 eta1)
  let xi0 := (etat0 + 1) * (1 / 2)
  let xi1 := (etat1 + 1) * (1 / 2)
  ((1 - xi0) * (1 - xi1), xi0 * (1 - xi1), xi0 * xi1, (1 - xi0) * xi1)

/-- The coefficients `aa0 ... aa3` of one component,
include/neso_particles/external_interfaces/common/coordinate_mapping.hpp:137-144. -/
def quadCoeff (w0 w1 w2 w3 : ℝ) : ℝ × ℝ × ℝ × ℝ :=
  (1 / 4 * (w0 + w1 + w2 + w3), 1 / 4 * (-w0 + w1 + w2 - w3), 1 / 4 * (-w0 - w1 + w2 + w3),
    1 / 4 * (w0 - w1 + w2 - w3))

/-- The coefficients `A`, `B`, `C` of the quadratic,
include/neso_particles/external_interfaces/common/coordinate_mapping.hpp:160-167. -/
def quadABC (a b : ℝ × ℝ × ℝ × ℝ) (x y : ℝ) : ℝ × ℝ × ℝ :=
  match a, b with
  | (a0, a1, a2, a3), (b0, b1, b2, b3) =>
    (a1 * b3 + -a3 * b1, (-x * b3 + a0 * b3) + (a1 * b2 + -a2 * b1) + (a3 * y + -a3 * b0),
      (-x * b2 + a0 * b2) + (a2 * y + -a2 * b0))

/-- A square root; that of a negative number is not a number. -/
def fsqrt (a : ℝ) : Option ℝ := if a < 0 then none else some (Real.sqrt a)

/-- `determinate`, include/neso_particles/external_interfaces/common/coordinate_mapping.hpp:171-173. -/
def quadDet (A B C : ℝ) : Option ℝ :=
  let inner := -4 * A * C + B * B
  if inner > 0 then fsqrt inner else some 0

/-- `eta0p` and `bad_eta0p`,
include/neso_particles/external_interfaces/common/coordinate_mapping.hpp:174-182. -/
def quadRootP (A B C det : ℝ) : Option ℝ × Bool :=
  if B ≥ 0 then ((fdiv 1 (2 * A)).map fun i2A => (-B - det) * i2A, decide (2 * A = 0))
  else (fdiv (2 * C) (-B + det), decide (-B + det = 0))

/-- `eta0m` and `bad_eta0m`,
include/neso_particles/external_interfaces/common/coordinate_mapping.hpp:174-183. -/
def quadRootM (A B C det : ℝ) : Option ℝ × Bool :=
  if B ≥ 0 then (fdiv (2 * C) (-B - det), decide (-B - det = 0))
  else ((fdiv 1 (2 * A)).map fun i2A => (-B + det) * i2A, decide (2 * A = 0))

/-- The second coordinate for a root, and the value 1000 for bad ones,
include/neso_particles/external_interfaces/common/coordinate_mapping.hpp:185-199. -/
def quadPair (b : ℝ × ℝ × ℝ × ℝ) (y : ℝ) (root : Option ℝ × Bool) : Option (ℝ × ℝ) :=
  match b with
  | (b0, b1, b2, b3) =>
    let denom := root.1.map fun e => b3 * e + b2
    let bad1 := decide (denom = some 0) || root.2
    let eta1 := root.1.bind fun e => denom.bind fun d => fdiv (-b1 * e + (y - b0)) d
    (if root.2 then some 1000 else root.1).bind fun e0 =>
    (if bad1 then some 1000 else eta1).bind fun e1 => some (e0, e1)

/-- The choice between the two pairs,
include/neso_particles/external_interfaces/common/coordinate_mapping.hpp:201-223. -/
def quadSelect (p m : ℝ × ℝ) : ℝ × ℝ :=
  let containedp := decide (|p.1| - 1 ≤ 0) && decide (|p.2| - 1 ≤ 0)
  let containedm := decide (|m.1| - 1 ≤ 0) && decide (|m.2| - 1 ≤ 0)
  let distp := (|p.1| - 1) + (|p.2| - 1)
  let distm := (|m.1| - 1) + (|m.2| - 1)
  let d := if distp < distm then p else m
  let c := if containedp then p else m
  if containedp || containedm then c else d

/-- The solution for given rows of the system,
include/neso_particles/external_interfaces/common/coordinate_mapping.hpp:160-223. -/
def quadSolve (a b : ℝ × ℝ × ℝ × ℝ) (x y : ℝ) : Option (ℝ × ℝ) :=
  match quadABC a b x y with
  | (A, B, C) =>
    (quadDet A B C).bind fun det =>
    (quadPair b y (quadRootP A B C det)).bind fun p =>
    (quadPair b y (quadRootM A B C det)).bind fun m =>
    some (quadSelect p m)

/-- `swap_rows`, include/neso_particles/external_interfaces/common/coordinate_mapping.hpp:147-148. -/
def quadSwap (a b : ℝ × ℝ × ℝ × ℝ) : Bool :=
  decide (|b.2.2.1| + |b.2.2.2| < |a.2.2.1| + |a.2.2.2|)

/-- `quad_cartesian_to_collapsed`,
include/neso_particles/external_interfaces/common/coordinate_mapping.hpp:132-224. -/
def quadCartToColl (x0 y0 x1 y1 x2 y2 x3 y3 xx yy : ℝ) : Option (ℝ × ℝ) :=
  let aa := quadCoeff x0 x1 x2 x3
  let bb := quadCoeff y0 y1 y2 y3
  if quadSwap aa bb then quadSolve bb aa yy xx else quadSolve aa bb xx yy

/-- `quad_collapsed_to_cartesian`,
include/neso_particles/external_interfaces/common/coordinate_mapping.hpp:242-256. -/
def quadCollToCart (x0 y0 x1 y1 x2 y2 x3 y3 eta0 eta1 : ℝ) : ℝ × ℝ :=
  let w0 := 1 / 4 * (1 - eta0) * (1 - eta1)
  let w1 := 1 / 4 * (1 + eta0) * (1 - eta1)
  let w2 := 1 / 4 * (1 + eta0) * (1 + eta1)
  let w3 := 1 / 4 * (1 - eta0) * (1 + eta1)
  ((x0 * w0 + x1 * w1) + (x2 * w2 + x3 * w3), (y0 * w0 + y1 * w1) + (y2 * w2 + y3 * w3))

/-- `quad_cartesian_to_barycentric`,
include/neso_particles/external_interfaces/common/coordinate_mapping.hpp:276-285. -/
def quadCartToBary (x0 y0 x1 y1 x2 y2 x3 y3 x y : ℝ) : Option (ℝ × ℝ × ℝ × ℝ) :=
  (quadCartToColl x0 y0 x1 y1 x2 y2 x3 y3 x y).bind fun e => some (quadCollToBary e.1 e.2)

/-- `Kernel::atan2`. -/
def atan2 (y x : ℝ) : ℝ := Complex.arg ⟨x, y⟩

/-- `cartesian_to_torus_cylindrical`,
include/neso_particles/external_interfaces/common/coordinate_mapping.hpp:338-364: `r`, `phi`,
`theta`. `Kernel::rsqrt` of zero does not give a number. -/
def cartToTorus (R x y z : ℝ) : Option (ℝ × ℝ × ℝ) :=
  let phi := atan2 y x
  (fdiv 1 (Real.sqrt (x * x + y * y))).bind fun inv =>
  let xn := x * inv
  let yn := y * inv
  let px := x - R * xn
  let py := y - R * yn
  let xplane := px * xn + py * yn
  some (Real.sqrt (px * px + py * py + z * z), phi, atan2 z xplane)

/-- `torus_cylindrical_to_cartesian`,
include/neso_particles/external_interfaces/common/coordinate_mapping.hpp:393-412. -/
def torusToCart (R r phi theta : ℝ) : ℝ × ℝ × ℝ :=
  let planex := R * Real.cos phi
  let planey := R * Real.sin phi
  (planex + r * Real.cos theta * Real.cos phi, planey + r * Real.cos theta * Real.sin phi,
    r * Real.sin theta)

end

end NP
