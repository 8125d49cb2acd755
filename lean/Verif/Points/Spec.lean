import Verif.Points.Model

/-! # Specification: quadrature points on many ranks -/

set_option autoImplicit false

namespace NP.Spec

variable {α : Type}

/-- All points of the ranks `0, …, n - 1`: the rank that added the point, its number among the points
of that rank, and its position. -/
def pointsOf (n : Nat) (pts : Nat → List (QPoint α)) : List (Nat × Nat × List α) :=
  (List.range n).flatMap fun r => (pts r).map fun p => (p.rank, p.index, p.coords)

/-- The ranks hold `pts` after the particles `added` moved between ranks and cells. -/
def PointsMoved (n : Nat) (added pts : Nat → List (QPoint α)) : Prop :=
  (pointsOf n pts).Perm (pointsOf n added)

/-- Each rank holds the points that it added. -/
def AllLocal (n : Nat) (pts : Nat → List (QPoint α)) : Prop :=
  ∀ b, b < n → ∀ p ∈ pts b, p.rank = b

end NP.Spec
