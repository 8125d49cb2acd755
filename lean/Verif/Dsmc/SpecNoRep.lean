import Verif.Dsmc.ModelNoRep
import Verif.Dsmc.SpecPartition
import Verif.Group.Spec
import Verif.Pair.SpecLoop

/-! Specification of the sampling of pairs without replacement. -/

set_option autoImplicit false

namespace NP.Spec

/-- The samplers of a program: made for `ncell` cells and used any number of times, for any
partitions, species, requests and random numbers. -/
inductive NoRepReachable (ncell : Nat) : NoRep → Prop
  | new (e : Env) : NoRepReachable ncell (NoRep.new e ncell)
  | sample {α : Type} {e : Env} {draw : Fresh α} {conv : α → Int → Int} {lss : Nat}
      {loc : Fresh Nat} {s s' : NoRep} {part : CollPart} {a b : Int} {requests : List (List Nat)}
      (he : EnvOk e) (hs : NoRepReachable ncell s)
      (h : s.sample e draw conv lss loc part a b requests = some s') : NoRepReachable ncell s'

/-- The particle in row `l` of mesh cell `c` is in the sub group and has species `s` and collision
cell `q`. -/
def Labelled (npart : List Nat) (par : Parent) (sp cc : Nat → Nat → Int) (c : Nat) (s q : Int)
    (l : Nat) : Prop :=
  InParent npart par c l ∧ sp c l = s ∧ cc c l = q

/-- A pair as it is stored. -/
def storedPair (x : Nat × Nat) : Int × Int := ((x.1 : Int), (x.2 : Int))

/-- The pairs of mesh cell `c`: those of its collision cells `0, ..., n - 1` one after the
other. -/
def cellPairs (ps : Nat → Nat → List (Nat × Nat)) (n c : Nat) : List (Int × Int) :=
  ((List.range n).flatMap (ps c)).map storedPair

end NP.Spec
