import Verif.Containers.ModelND
import Verif.Containers.Spec
import Mathlib.Algebra.BigOperators.Group.List.Basic

/-! Specification: an array is a function of its index tuples. -/

set_option autoImplicit false

namespace NP.Spec

/-- All index tuples in lexicographic order, the last index is fastest. -/
def allIdx : List Int → List (List Int)
  | [] => [[]]
  | s :: ss => (List.range s.toNat).flatMap fun i : Nat => (allIdx ss).map fun is => (i : Int) :: is

/-- How a use changes the function from `f` to `f'`. -/
def NDStep {α : Type} [AddCommMonoid α] (shape : List Int) (f : List Int → α) :
    NDOp α → (List Int → α) → Prop
  | .fill v, f' => ∀ i, InShape shape i → f' i = v
  | .set data, f' => data = (allIdx shape).map f'
  | .adds calls, f' => ∀ i, InShape shape i →
      f' i = f i + ((calls.filter fun c => c.1 = i).map (·.2)).sum
  | .write idx v, f' => f' idx = v ∧ ∀ i, InShape shape i → i ≠ idx → f' i = f i

/-- How a history of uses changes it. -/
def NDHistory {α : Type} [AddCommMonoid α] (shape : List Int) :
    (List Int → α) → List (NDOp α) → (List Int → α) → Prop
  | f, [], f' => ∀ i, InShape shape i → f' i = f i
  | f, op :: ops, f' => ∃ g, NDStep shape f op g ∧ NDHistory shape g ops f'

/-- All indices are in the shape. -/
def NDInside {α : Type} (shape : List Int) : NDOp α → Prop
  | .fill _ => True
  | .set _ => True
  | .adds calls => ∀ c ∈ calls, InShape shape c.1
  | .write idx _ => InShape shape idx

/-- The vectors passed to `set` have an entry for each index tuple. -/
def NDSized {α : Type} (shape : List Int) : NDOp α → Prop
  | .set data => data.length = (allIdx shape).length
  | _ => True

end NP.Spec
