import Verif.Dsmc.ModelAllToAll

/-! # What looping over all pairs means -/

set_option autoImplicit false

namespace NP.Spec

/-- The number of calls of the kernel with row `a` and column `b`, over all work items of a work
group of `wg` work items. `trace i` are the phases of work item `i`. -/
def callCount (wg : Nat) (trace : Nat → List (Option (Nat × Nat))) (a b : Nat) : Nat :=
  ((List.range wg).map fun i => (trace i).count (some (a, b))).sum

/-- Two work items may call the kernel with `x` and `y` in one phase: the columns are different,
and the column of one is not the row of the other. -/
def Apart (x y : Option (Nat × Nat)) : Prop :=
  ∀ p q : Nat × Nat, x = some p → y = some q → p.2 ≠ q.2 ∧ p.1 ≠ q.2 ∧ p.2 ≠ q.1

end NP.Spec
