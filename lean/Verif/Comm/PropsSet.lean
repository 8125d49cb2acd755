import Verif.Comm.LemmasSet

/-!
# C32: the tree reduction of sets gives the union
-/

set_option autoImplicit false

namespace NP

open Spec

/-- `set_reduce_union` by all ranks of a communicator of any size, with any inputs and any root:
in whatever order the ranks run and whether or not MPI buffers messages, all ranks return, no
message is left, the root has the union of the inputs and all other ranks the empty set. -/
theorem C32_reduce {size root : Nat} (h0 : 0 < size) (h1 : size < 2 ^ 31) (hr : root < size)
    (input : Nat → List Int) : ∃ f : Net SetMsg (List Int),
      EndsIn (reduceNet size root input) f ∧ NoMessages f ∧
      (∃ u, IsUnionOf size input u ∧ f.proc root = .done u) ∧
      ∀ r < size, r ≠ root → f.proc r = .done [] := by
  obtain ⟨u, hu, hd⟩ := direct_reduce h0 h1 hr (input := input)
  refine ⟨_, endsIn_of_direct hd ?_, fun _ _ _ => rfl, ⟨u, hu, ?_⟩, ?_⟩
  · intro r
    by_cases h : r < size
    · exact ⟨_, if_pos h⟩
    · exact ⟨_, if_neg h⟩
  · simp [ranks, hr]
  · intro r h hne
    simp [ranks, h, hne]

/-- The union is one list: the result does not depend on the schedule. -/
theorem C32_union_unique {size : Nat} {input : Nat → List Int} {u v : List Int}
    (hu : IsUnionOf size input u) (hv : IsUnionOf size input v) : u = v :=
  isSet_ext hu.1 hv.1 fun x => (hu.2 x).trans (hv.2 x).symm

/-- `set_all_reduce_union`: when the reduction has ended and `results` are what it returned on
each rank, the broadcast gives the union on every rank. -/
theorem C32_all_reduce {size : Nat} (h0 : 0 < size) (h1 : size < 2 ^ 31)
    (input : Nat → List Int) : ∃ f : Net SetMsg (List Int),
      EndsIn (reduceNet size 0 input) f ∧
      ∀ results : Nat → List Int, (∀ r < size, f.proc r = .done (results r)) →
        ∀ r < size, IsUnionOf size input (setAllReduce results r) := by
  obtain ⟨f, h2, -, ⟨u, hu, h3⟩, -⟩ := C32_reduce h0 h1 h0 input
  refine ⟨f, h2, fun results hres r hr => ?_⟩
  have : results 0 = u := by
    have := hres 0 h0
    rw [h3] at this
    exact (Proc.done.inj this).symm
  unfold setAllReduce setBcast
  rw [this, rankSetInsertAll_self hu.1]
  exact hu

namespace Ex

/-- Five ranks, one of them with no elements. -/
def setInput : Nat → List Int := fun r => if r = 3 then [] else [-(r : Int), 2, 4 + r]

example : ∃ f : Net SetMsg (List Int), EndsIn (reduceNet 5 2 setInput) f ∧ NoMessages f ∧
    (∃ u, IsUnionOf 5 setInput u ∧ f.proc 2 = .done u) ∧
    ∀ r < 5, r ≠ 2 → f.proc r = .done [] := C32_reduce (by omega) (by omega) (by omega) _

example : IsUnionOf 5 setInput [-4, -2, -1, 0, 2, 4, 5, 6, 8] := by
  refine ⟨by unfold IsSet; decide, fun x => ?_⟩
  constructor
  · intro h
    simp only [List.mem_cons, List.not_mem_nil, or_false] at h
    rcases h with rfl | rfl | rfl | rfl | rfl | rfl | rfl | rfl | rfl
    · exact ⟨4, by decide, by decide⟩
    · exact ⟨2, by decide, by decide⟩
    · exact ⟨1, by decide, by decide⟩
    · exact ⟨0, by decide, by decide⟩
    · exact ⟨0, by decide, by decide⟩
    · exact ⟨0, by decide, by decide⟩
    · exact ⟨1, by decide, by decide⟩
    · exact ⟨2, by decide, by decide⟩
    · exact ⟨4, by decide, by decide⟩
  · rintro ⟨r, hr, h⟩
    have : r = 0 ∨ r = 1 ∨ r = 2 ∨ r = 3 ∨ r = 4 := by omega
    rcases this with rfl | rfl | rfl | rfl | rfl <;>
      simp [setInput] at h ⊢ <;> omega

end Ex

end NP
