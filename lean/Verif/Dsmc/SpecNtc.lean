import Verif.Dsmc.ModelNtc
import Verif.Sub.SpecBuilt
import Verif.Pair.SpecLoop

/-! Specification of the sampling of pairs with the NTC sampler. -/

set_option autoImplicit false

namespace NP.Spec

/-- Two pairs of layers of one cell have a particle in common. -/
def SharesParticle (x y : Nat × Nat) : Prop := x.1 = y.1 ∨ x.1 = y.2 ∨ x.2 = y.1 ∨ x.2 = y.2

/-- The list in the form in which the device structure describes it. -/
def storedWaves (l : List ((Nat × Nat) × Nat)) : List ((Int × Int) × Nat) :=
  l.map fun x => (((x.1.1 : Int), (x.1.2 : Int)), x.2)

/-- The pairs and waves of one cell: two pairs in the same wave of the same block have no particle
in common. -/
def ConflictFree (bs : Nat) (l : List ((Nat × Nat) × Nat)) : Prop :=
  ∀ (k k' : Nat) (x y : Nat × Nat) (w : Nat), l[k]? = some (x, w) → l[k']? = some (y, w) →
    k / bs = k' / bs → k ≠ k' → ¬ SharesParticle x y

/-- A pair is in a later wave only if it has a particle in common with a pair in the wave before,
in the same block. -/
def WavesNeeded (bs : Nat) (l : List ((Nat × Nat) × Nat)) : Prop :=
  ∀ (k : Nat) (x : Nat × Nat) (w : Nat), l[k]? = some (x, w + 1) →
    ∃ k' y, l[k']? = some (y, w) ∧ k' / bs = k / bs ∧ SharesParticle x y

/-- There are enough particles for the requested pairs: if any are requested, two different ones
of one sub group, or one of each. -/
def EnoughForPairs (npart : List Nat) (A B : Parent) (aIsB : Bool) (c n : Nat) : Prop :=
  n = 0 ∨ if aIsB then ∃ l l', l ≠ l' ∧ InParent npart A c l ∧ InParent npart A c l'
    else (∃ l, InParent npart A c l) ∧ ∃ l, InParent npart B c l

end NP.Spec
