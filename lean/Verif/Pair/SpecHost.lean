import Verif.Pair.ModelHost

/-! # Specification of the host pair list -/

set_option autoImplicit false

namespace NP.Spec

/-- Two pairs have a particle in common. -/
def Share (p q : Int × Int) : Prop := p.1 = q.1 ∨ p.1 = q.2 ∨ p.2 = q.1 ∨ p.2 = q.2

/-- The pair of a call, with the smaller index first. -/
def orderedPair (x : Int × Int × Int) : Int × Int :=
  (min x.2.1 x.2.2, max x.2.1 x.2.2)

/-- The pairs pushed for one cell, in the order of the calls. -/
def pushedFor (pushes : List (Int × Int × Int)) (cell : Int) : List (Int × Int) :=
  (pushes.filter fun x => x.1 == cell).map orderedPair

/-- `w` says in which wave the pair of each call is. -/
structure WaveOf (pushes : List (Int × Int × Int)) (p : PairHost) (w : List Nat) : Prop where
  /-- One wave for each call. -/
  len : w.length = pushes.length
  /-- The waves hold exactly the pairs that were put into them, in the order of the calls. -/
  content : ∀ (cell : Int) (v : Nat), p.pairs cell v =
    ((pushes.zip w).filter fun x => x.1.1 == cell && x.2 == v).map fun x => orderedPair x.1
  /-- Of two calls for the same cell that share a particle, the earlier one has the earlier
  wave. -/
  order : ∀ (a b : Nat) (x y : Int × Int × Int) (v u : Nat), a < b → pushes[a]? = some x →
    pushes[b]? = some y → x.1 = y.1 → Share (orderedPair x) (orderedPair y) →
    w[a]? = some v → w[b]? = some u → v < u
  /-- The waves of a cell are 0, 1, ..., `numWaves - 1`; none of them is empty. -/
  contiguous : ∀ (cell : Int) (v : Nat), v < p.numWaves cell ↔ p.pairs cell v ≠ []

end NP.Spec
