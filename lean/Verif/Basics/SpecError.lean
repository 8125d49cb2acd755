import Verif.Basics.ModelError

/-!
# Specification: failed assertions since the last reset
-/

set_option autoImplicit false

namespace NP.Spec

/-- The failed assertions of one call. -/
def opFailures : ErrOp → Nat
  | .kernel a => a.count false
  | _ => 0

/-- Is the call a reset? -/
def isReset : ErrOp → Bool
  | .reset => true
  | _ => false

/-- The number of assertions that failed in kernels after the last reset of the history. -/
def failuresSince (ops : List ErrOp) : Nat := ((ops.reverse.takeWhile fun o => !isReset o).map opFailures).sum

end NP.Spec
