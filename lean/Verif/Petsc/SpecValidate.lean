import Verif.Petsc.ModelValidate

/-! Specification: halos that are copies of the mesh. -/

set_option autoImplicit false

namespace NP.Spec

/-- Number of coordinates of a point of a two dimensional mesh: two for each vertex. -/
def CoordsOk (x : ValPoint) : Prop :=
  x.coords.length = if x.depth = 0 then 2 else if x.depth = 1 then 4 else 2 * x.cone.length

/-- `p` is a point of the mesh that rank `s` owns, `g` its global number. -/
def OwnedBy (ranks : List ValRank) (g : Int) (s p : Nat) : Prop :=
  ∃ S, ranks[s]? = some S ∧ S.numbers[p]? = some g ∧ 0 ≤ g ∧ p < S.points.length

/-- What PETSc guarantees of a distributed two dimensional mesh: all points have numbers,
cones are points of the mesh, and no global number is given to two owned points. -/
structure ValWf (ranks : List ValRank) : Prop where
  numbered : ∀ R ∈ ranks, R.numbers.length = R.points.length
  cones : ∀ R ∈ ranks, ∀ x ∈ R.points, ∀ q ∈ x.cone, q < R.points.length
  coords : ∀ R ∈ ranks, ∀ x ∈ R.points, CoordsOk x
  haloCoords : ∀ R ∈ ranks, ∀ H, R.halo = some H → ∀ x ∈ H.1, CoordsOk x
  owner : ∀ g s p s' p', OwnedBy ranks g s p → OwnedBy ranks g s' p' → s = s' ∧ p = p'

/-- The cells are triangles or quadrilaterals (for all points that have an owner). -/
def AtMostFour (ranks : List ValRank) : Prop :=
  ∀ g s p S x, OwnedBy ranks g s p → ranks[s]? = some S → S.points[p]? = some x →
    x.cone.length < 5 ∧ x.coords.length ≤ 8

/-- The vertices of a point. -/
def verticesOf (coords : List ℚ) (v : ℚ × ℚ) : Prop :=
  ∃ k, coords[2 * k]? = some v.1 ∧ coords[2 * k + 1]? = some v.2

/-- The points of the halo of a rank are copies: for each there is the point of the mesh
that the map names, with the same dimension, the same points (by global number) in its
cone in the same order and the same vertices; for a cell the map names the rank that owns
it. -/
def HalosAreCopies (ranks : List ValRank) : Prop :=
  ∀ R ∈ ranks, ∀ H, R.halo = some H → ∀ (h : Nat) (x : ValPoint), H.1[h]? = some x →
    ∃ rank lid g s p S y, omGet H.2 h = some (rank, lid, g) ∧ OwnedBy ranks g s p ∧
      ranks[s]? = some S ∧ S.points[p]? = some y ∧ y.depth = x.depth ∧
      y.cone.length = x.cone.length ∧
      (∀ (c q q' : Nat), x.cone[c]? = some q → y.cone[c]? = some q' →
        ∃ e n, omGet H.2 q = some e ∧ S.numbers[q']? = some n ∧
          e.2.2 = if 0 ≤ n then n else -n - 1) ∧
      (x.depth = 2 → rank = s) ∧ x.coords.length ≤ 8 ∧
      ∀ v, verticesOf x.coords v ↔ verticesOf y.coords v

end NP.Spec
