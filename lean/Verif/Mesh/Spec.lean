import Verif.Mesh.Model
import Mathlib.Data.List.Forall2

/-!
# What the mesh hierarchy properties say
-/

set_option autoImplicit false

namespace NP.Spec

/-- A mesh hierarchy that the constructor accepts. -/
def ValidMesh (mh : MeshHierarchy) : Prop := mh.dims ≠ [] ∧ ∀ d ∈ mh.dims, 0 < d

/-- `t` has one index per extent and each is inside its extent. -/
def InRange (ds t : List Int) : Prop := List.Forall₂ (fun n x => 0 ≤ x ∧ x < n) ds t

/-- `f` and `g` are mutually inverse bijections between the tuples `P` and the indices
`0, ..., n-1`, defined on all of them. -/
structure IndexBijection (P : List Int → Prop) (n : Int) (toLinear : List Int → Option Int)
    (toTuple : Int → Option (List Int)) : Prop where
  /-- An admissible tuple has an index in range, from which the tuple is recovered. -/
  tuple : ∀ t, P t → ∃ i, toLinear t = some i ∧ 0 ≤ i ∧ i < n ∧ toTuple i = some t
  /-- An index in range has an admissible tuple, from which the index is recovered. -/
  linear : ∀ i, 0 ≤ i → i < n → ∃ t, toTuple i = some t ∧ P t ∧ toLinear t = some i

/-- Every rank is in one node, no node is empty. -/
def ValidLayout (layout : NodeLayout) : Prop :=
  layout.flatten.Nodup ∧ (∀ node ∈ layout, node ≠ []) ∧ layout ≠ []

/-- A call of `claim_cell` that respects the documented bounds. -/
def ValidClaim (layout : NodeLayout) (ncells : Nat) (e : Claim) : Prop :=
  e.rank ∈ layout.flatten ∧ 0 ≤ e.cell ∧ e.cell < ncells ∧ 0 < e.weight ∧ e.weight < 2147483647

/-- `r` is the highest rank among those whose claim on `cell` has the largest weight. -/
def IsOwner (claims : List Claim) (cell : Int) (r : Nat) : Prop :=
  ∃ e ∈ claims, e.rank = r ∧ e.cell = cell ∧
    ∀ e' ∈ claims, e'.cell = cell →
      e'.weight ≤ e.weight ∧ (e'.weight = e.weight → e'.rank ≤ r)

/-- Global coordinates `x` of the fine cell with linear index `c`: in each dimension the
coarse index times the number of fine cells per coarse cell plus the fine index. -/
def IsCellAt (mh : MeshHierarchy) (x : List Int) (c : Int) : Prop :=
  ∃ cs fs, InRange mh.dims cs ∧ InRange (List.replicate mh.ndim mh.ncellsDimFine) fs ∧
    mh.tupleToLinearGlobal (cs ++ fs) = some c ∧
    x = List.zipWith (fun a b => a * mh.ncellsDimFine + b) cs fs

/-- In a dimension with `n` fine cells, `y` is at most `offset` cells from `x`; with
periodic wrapping if `pbc`. -/
def Near (pbc : Bool) (offset n x y : Int) : Prop :=
  ∃ o, -offset ≤ o ∧ o ≤ offset ∧ if pbc then (y - (x + o)) % n = 0 else y = x + o

/-- The cells with coordinates `x` and `y` are at most `offset` apart in each dimension. -/
def NearCell (mh : MeshHierarchy) (pbc : Bool) (offset : Int) (x y : List Int) : Prop :=
  ∀ (d : Nat) (n a b : Int), mh.dims[d]? = some n → x[d]? = some a → y[d]? = some b →
    Near pbc offset (n * mh.ncellsDimFine) a b

end NP.Spec
