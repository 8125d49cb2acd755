import Verif.Points.ModelDof

/-! # Specification: the mapper of degrees of freedom -/

set_option autoImplicit false

namespace NP.Spec

variable {α : Type}

/-- The index that the last call of `set` for a cell and a degree of freedom gave. -/
def lastSet : List (DofOp α) → Int → Int → Option Int
  | [], _, _ => none
  | .set c d ix :: ops, cell, dof =>
    match lastSet ops cell dof with
    | some r => some r
    | none => if c = cell ∧ d = dof then some ix else none
  | _ :: ops, cell, dof => lastSet ops cell dof

/-- All degrees of freedom have different external indices below their number. -/
structure DofNumbering (ops : List (DofOp α)) (ncell ndof : Nat) : Prop where
  given : ∀ c d : Nat, c < ncell → d < ndof → ∃ ix : Nat, ix < ncell * ndof ∧
    lastSet ops c d = some (ix : Int)
  distinct : ∀ c d c' d' : Nat, c < ncell → d < ndof → c' < ncell → d' < ndof →
    lastSet ops c d = lastSet ops c' d' → c = c' ∧ d = d'

end NP.Spec
