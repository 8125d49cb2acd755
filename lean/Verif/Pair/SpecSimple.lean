import Verif.Pair.ModelSimple
import Verif.Pair.SpecLoop

/-! # Specification of device pair lists -/

set_option autoImplicit false

namespace NP.Spec

/-- The pairs that one call of `push_back` adds to a cell, in order. -/
def newPairs (c i j : List Int) (cell : Nat) : List (Int × Int) :=
  ((c.zip (i.zip j)).filter fun x => x.1 == (cell : Int)).map Prod.snd

/-- The pairs that a sequence of calls adds to a cell, in order. -/
def pushedPairs (pushes : List (List Int × List Int × List Int)) (cell : Nat) :
    List (Int × Int) :=
  pushes.flatMap fun x => newPairs x.1 x.2.1 x.2.2 cell

/-- Valid arguments of `push_back`. -/
def ValidPush (cellCount : Nat) (x : List Int × List Int × List Int) : Prop :=
  x.1.length = x.2.1.length ∧ x.1.length = x.2.2.length ∧ ∀ c ∈ x.1, 0 ≤ c ∧ c < cellCount

/-- The waves of a host pair list. -/
def hostWaves (p : PairHost) : WaveList := fun c =>
  (List.range (p.numWaves c)).map fun w : Nat => p.pairs c w

end NP.Spec
