import Verif.Algo.ModelInverse
import Mathlib.LinearAlgebra.Matrix.Determinant.Basic
import Mathlib.Data.Matrix.Mul
import Mathlib.LinearAlgebra.CrossProduct

/-!
# Specification: inverses of small matrices
-/

set_option autoImplicit false

namespace NP.Spec

/-- The matrix with the given entries, one row after the other. -/
def rowMajor {F : Type} (n : Nat) (M : Nat → F) : Matrix (Fin n) (Fin n) F :=
  Matrix.of fun i j => M (n * i.val + j.val)

/-- `L` are the entries, one row after the other, of the inverse of the matrix with the entries `M`. -/
def IsInverseOf {F : Type} [Field F] (n : Nat) (M : Nat → F) (L : List F) : Prop :=
  L.length = n * n ∧
  rowMajor n M * rowMajor n (fun k => L.getD k 0) = 1 ∧ rowMajor n (fun k => L.getD k 0) * rowMajor n M = 1

end NP.Spec
