import Verif.Containers.ModelTree
import Verif.Containers.Spec

/-!
# Specification: blocked binary tree
-/

set_option autoImplicit false

namespace NP.Spec

/-- Adds to a tree, one after the other; `garbage i` is the content of the memory if the
`i`th add allocates a node. -/
def treeAdds {V : Type} (width : Nat) (garbage : Nat → TreeNode V) :
    Nat → BlockedTree V → List (Int × V) → Option (BlockedTree V)
  | _, t, [] => some t
  | i, t, (k, v) :: rest => (t.add width (garbage i) k v).bind fun t =>
      treeAdds width garbage (i + 1) t rest

/-- Memory for one node with blocks of size `width`. -/
def NodeSized {V : Type} (width : Nat) (n : TreeNode V) : Prop :=
  n.exist.length = width ∧ n.data.length = width

end NP.Spec
