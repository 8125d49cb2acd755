import Verif.Containers.LemmasTree

/-!
# Property C47: blocked binary tree
-/

set_option autoImplicit false

namespace NP

open Spec

/-- **C47** For every node width, every sequence of adds to a new tree, whatever the new
memory contains: no add fails, and a lookup ends and returns the value last added for the
key, or reports that there is none, for all keys. -/
theorem C47_map {V : Type} (width : Nat) (hw : 0 < width) (garbage : Nat → TreeNode V)
    (hg : ∀ i, NodeSized width (garbage i)) (adds : List (Int × V)) :
    ∃ t, treeAdds width garbage 0 (BlockedTree.create V) adds = some t ∧
      ∀ key, t.hostGet width key = some (lastAdded adds key) := by
  obtain ⟨t, e, ok⟩ := TreeOk.adds hw garbage hg adds 0 _ _ (TreeOk.create width)
  refine ⟨t, e, fun key => ?_⟩
  have := ok.get hw key
  simpa using this

/-- **C47** The same for a lookup in a kernel, which starts at the root node. -/
theorem C47_device_lookup {V : Type} (width : Nat) (hw : 0 < width) (garbage : Nat → TreeNode V)
    (hg : ∀ i, NodeSized width (garbage i)) (adds : List (Int × V)) (hne : adds ≠ []) :
    ∃ t root, treeAdds width garbage 0 (BlockedTree.create V) adds = some t ∧
      t.root = some root ∧
      ∀ key, nodeGet t.heap root width key = some (lastAdded adds key) := by
  obtain ⟨t, e, h⟩ := C47_map width hw garbage hg adds
  cases hr : t.root with
  | none =>
    exfalso
    cases adds with
    | nil => exact hne rfl
    | cons p rest =>
      have hsome : ∀ (l : List (Int × V)) (k : Int), (∃ v, (k, v) ∈ l) → lastAdded l k ≠ none := by
        intro l k
        induction l with
        | nil => rintro ⟨v, hv⟩; cases hv
        | cons q l ih =>
          rintro ⟨v, hv⟩
          obtain ⟨k', v'⟩ := q
          simp only [lastAdded]
          cases hl : lastAdded l k with
          | some x => simp
          | none =>
            rcases List.mem_cons.mp hv with e | hv
            · cases e; simp
            · exact absurd hl (ih ⟨v, hv⟩)
      have := h p.1
      unfold BlockedTree.hostGet at this
      rw [hr] at this
      simp only [Option.some.injEq] at this
      exact hsome (p :: rest) p.1 ⟨p.2, by simp⟩ this.symm
  | some root =>
    refine ⟨t, root, e, hr, fun key => ?_⟩
    have := h key
    unfold BlockedTree.hostGet at this
    rw [hr] at this
    exact this

-- Width 4, positive and negative keys, a repeated key, and nodes on both sides.
example : (∀ i : Nat, NodeSized 4
      ((fun _ => ⟨99, some 3, some 5, [true, true, true, true], [9, 9, 9, 9]⟩ :
        Nat → TreeNode Nat) i)) ∧
    ((treeAdds 4 (fun _ => ⟨99, some 3, some 5, [true, true, true, true], [9, 9, 9, 9]⟩) 0
      (BlockedTree.create Nat)
      [(5, 1), (-1, 2), (-5, 3), (20, 4), (5, 6), (12, 7)]).bind fun t =>
        some ([5, -1, -5, 20, 12, -4, 100].map fun k => t.hostGet 4 k)) =
    some [some (some 6), some (some 2), some (some 3), some (some 4), some (some 7),
      some none, some none] :=
  ⟨fun _ => ⟨rfl, rfl⟩, by decide⟩

end NP
