import Verif.Petsc.ModelMapper
import Mathlib.Analysis.Convex.Hull

/-!
# Specification: particles to cells of two dimensional meshes
-/

set_option autoImplicit false

namespace NP.Spec

/-- Twice the signed area of a triangle; positive if the corners are counterclockwise. -/
def turn (a b c : ℚ × ℚ) : ℚ := (b.1 - a.1) * (c.2 - a.2) - (b.2 - a.2) * (c.1 - a.1)

/-- The corners, in order, of a triangle with an area or of a quadrilateral which is strictly
convex, in either direction. -/
def Convex2D : List (ℚ × ℚ) → Prop
  | [a, b, c] => turn a b c ≠ 0
  | [a, b, c, d] => (0 < turn a b c ∧ 0 < turn b c d ∧ 0 < turn c d a ∧ 0 < turn d a b) ∨
      (turn a b c < 0 ∧ turn b c d < 0 ∧ turn c d a < 0 ∧ turn d a b < 0)
  | _ => False

/-- The numbers `x0 y0 x1 y1 ...` of the corners. -/
def flatCoords (vs : List (ℚ × ℚ)) : List ℚ := vs.flatMap fun v => [v.1, v.2]

/-- The point is in the cell or on its boundary. -/
def InCell2D (vs : List (ℚ × ℚ)) (p : ℚ × ℚ) : Prop := p ∈ convexHull ℚ {v | v ∈ vs}

/-- The corner `u` comes before `p`: further left, or below it. -/
def LeftOf (u p : ℚ × ℚ) : Prop := u.1 < p.1 ∨ (u.1 = p.1 ∧ u.2 < p.2)

/-- The points that are taken to be in a cell: those of the closed cell which have a corner of the
cell above them, and of those at the top of the cell only corners, unless the corner is the first
one of the cell from the left. -/
def Binned (vs : List (ℚ × ℚ)) (p : ℚ × ℚ) : Prop :=
  InCell2D vs p ∧ ((∃ v ∈ vs, p.2 < v.2) ∨ (p ∈ vs ∧ ∃ u ∈ vs, LeftOf u p))

/-- A cell as the mapper should know it: the rank that owns it, the id of the cell on that rank,
the corners. -/
structure MeshCell where
  rank : Int
  localId : Int
  corners : List (ℚ × ℚ)

/-- The point is in the box in the first two dimensions. -/
def InBox2 (b : BBox) (p : ℚ × ℚ) : Prop :=
  ∃ lx ly lz ux uy uz, b = ([lx, ly, lz], [ux, uy, uz]) ∧ lx ≤ p.1 ∧ p.1 ≤ ux ∧ ly ≤ p.2 ∧ p.2 ≤ uy

/-- A box in three dimensions. -/
def IsBox (b : BBox) : Prop := b.1.length = 3 ∧ b.2.length = 3

/-- The cells that a rank knows, in order: its own, numbered from zero, then those of its halo, for
which rank and id are looked up with the point of the cell. -/
def KnownCells (rank : Int) (loc : List (List (ℚ × ℚ))) (halo : List (Int × List (ℚ × ℚ)))
    (lids : LidMap) (cells : List MeshCell) : Prop :=
  ∃ hal, cells = loc.mapIdx (fun i vs => ⟨rank, (i : Int), vs⟩) ++ hal ∧
    List.Forall₂ (fun h c => c.corners = h.2 ∧ ∃ g, omGet lids h.1 = some (c.rank, c.localId, g))
      halo hal

end NP.Spec
