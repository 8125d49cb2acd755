import Verif.Petsc.ModelLabel

/-!
# Specification: labels for edges that are given by their vertices
-/

set_option autoImplicit false

namespace NP.Spec

/-- Some rank asks for the label `l` for the edge between the vertices `vs` and `ve` (global numbers). -/
def Requested (starts ends labels : List (List Int)) (vs ve l : Int) : Prop :=
  ∃ (r i : Nat) (a b c : List Int), starts[r]? = some a ∧ ends[r]? = some b ∧ labels[r]? = some c ∧
    a[i]? = some vs ∧ b[i]? = some ve ∧ c[i]? = some l

/-- The point `p` of the part of the mesh on a rank is an edge of the vertex with global number `v`. -/
def EdgeAtVertex (m : LabelRank) (v p : Int) : Prop :=
  ∃ (i : Nat) (k : Int) (s : List Int), m.numbers[i]? = some k ∧ (k = v ∨ k = -v - 1) ∧ 0 ≤ v ∧
    m.support (m.vstart + i) = some s ∧ p ∈ s

/-- The point `p` is an edge between the vertices. -/
def Joins (m : LabelRank) (vs ve p : Int) : Prop := EdgeAtVertex m vs p ∧ EdgeAtVertex m ve p

/-- A part of a mesh: no vertex has the number of another, each has a support in ascending order. -/
structure LabelRankOk (m : LabelRank) : Prop where
  inj : ∀ (i j : Nat) (a b : Int), m.numbers[i]? = some a → m.numbers[j]? = some b →
    (a = b ∨ a = -b - 1) → i = j
  support : ∀ i, i < m.numbers.length → ∃ s, m.support (m.vstart + i) = some s ∧ s.Pairwise (· < ·)

end NP.Spec
