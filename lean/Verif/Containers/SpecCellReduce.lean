import Verif.Containers.ModelCellReduce
import Verif.Algo.SpecReduce
import Verif.Boundary.Spec

/-! Specification of reduction access to a `CellDatConst`. -/

set_option autoImplicit false

namespace NP.Spec

/-- The values a kernel call combines into the entry of row `r` and column `k`. -/
def valuesFor {T : Type} (calls : List (Nat × Nat × T)) (r k : Nat) : List T :=
  calls.filterMap fun x => if x.1 = r ∧ x.2.1 = k then some x.2.2 else none

/-- `new` is `old` combined with each value that a kernel call for a particle of the group or sub group
in the cell combines into the entry, in whatever order the particles are listed. -/
def CombinesCalls {T : Type} (op : T → T → T) (npart : List Nat) (par : Parent)
    (calls : Nat → Nat → List (Nat × Nat × T)) (c r k : Nat) (old new : T) : Prop :=
  ∀ layers : List Nat, layers.Nodup → (∀ l, l ∈ layers ↔ InParent npart par c l) →
    new = (layers.flatMap fun l => valuesFor (calls c l) r k).foldl op old

end NP.Spec
