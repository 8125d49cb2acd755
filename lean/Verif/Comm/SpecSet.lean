import Verif.Comm.ModelSet

/-!
# Specification: unions of sets over all ranks
-/

set_option autoImplicit false

namespace NP.Spec

/-- A `std::set` as the list of its elements: strictly increasing. -/
def IsSet (s : List Int) : Prop := s.Pairwise (· < ·)

/-- `u` is the set of the numbers that are in the input of any rank. -/
def IsUnionOf (size : Nat) (input : Nat → List Int) (u : List Int) : Prop :=
  IsSet u ∧ ∀ x, x ∈ u ↔ ∃ r < size, x ∈ input r

/-- No message is left. -/
def NoMessages {M R : Type} (s : Net M R) : Prop := ∀ src dst tag, s.chan src dst tag = []

end NP.Spec
