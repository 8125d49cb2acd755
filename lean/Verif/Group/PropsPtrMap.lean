import Verif.Group.LemmasPtrMap3

/-!
# Properties: the pointer map of a particle group

`C97`. The histories are all lists of additions and removals of properties, requests for the map for reading and
for writing, and settings of the numbers of particles.
-/

set_option autoImplicit false

namespace NP

open Spec

/-- The map that is given for reading describes the properties that the group has now, whatever happened before,
and asking for it changes no property, no count and calls no write callback. -/
theorem C97_read {fresh : Fresh Nat} {ncell : Nat} {posSym : Int} {ndim : Nat} {fixedSyms : List Int}
    {ops : List MapOp} {w : MapWorld} (h : runMapOps fresh ncell posSym ndim fixedSyms ops = some w)
    (env : MapEnv) :
    ∃ w', createConst env w = some w' ∧ MapDescribes w' ∧ SameDats w w' ∧
      w'.host = w.host ∧ w'.device = w.device ∧ w'.writes = w.writes := by
  obtain ⟨w', h1, inv, hv, s, e1, e2, e3⟩ := createConst_spec env (inv_history h)
  exact ⟨w', h1, (inv.const hv).1, s, e1, e2, e3⟩

/-- The map that is given for writing has moreover the pointers of the properties that the group has now, and the
write callback of each of them, and of nothing else, is called once. -/
theorem C97_write {fresh : Fresh Nat} {ncell : Nat} {posSym : Int} {ndim : Nat} {fixedSyms : List Int}
    {ops : List MapOp} {w : MapWorld} (h : runMapOps fresh ncell posSym ndim fixedSyms ops = some w)
    (env : MapEnv) :
    ∃ w', createMap env w = some w' ∧ MapDescribes w' ∧ WriteDescribes w' ∧ SameDats w w' ∧
      w'.host = w.host ∧ w'.device = w.device ∧
      ∀ k, w'.writes k = w.writes k + if k ∈ datIds w then 1 else 0 := by
  have inv0 := inv_history h
  obtain ⟨w', h1, inv, hv, hv2, s, e1, e2, e3⟩ := createMap_spec env inv0
  refine ⟨w', h1, (inv.const hv).1, (inv.write hv2).2, s, e1, e2, fun k => ?_⟩
  rw [e3 k]
  split
  · rename_i hk; rw [List.count_eq_one_of_mem inv0.nodup hk]
  · rename_i hk; rw [List.count_eq_zero_of_not_mem hk]

/-- Setting the numbers of particles per cell sets them for every property that the group has now, on the host
and on the device, in any order of the work items, and touches nothing else: in particular no memory of a
removed property. -/
theorem C97_counts {fresh : Fresh Nat} {ncell : Nat} {posSym : Int} {ndim : Nat} {fixedSyms : List Int}
    {ops : List MapOp} {w : MapWorld} (hw : runMapOps fresh ncell posSym ndim fixedSyms ops = some w)
    (env : MapEnv) (h d : List Int) (hh : w.ncell ≤ h.length) (hd : w.ncell ≤ d.length) :
    ∃ w', setNpartCells env h d w = some w' ∧ SameDats w w' ∧
      (∀ k ∈ datIds w, w'.host k = some (h.take w.ncell) ∧ w'.device k = some (d.take w.ncell)) ∧
      (∀ k, k ∉ datIds w → w'.host k = w.host k ∧ w'.device k = w.device k) := by
  obtain ⟨w', h1, -, -, -, s, e1, e2, -⟩ := setNpartCells_spec env (inv_history hw) h d hh hd
  exact ⟨w', h1, s, e1, e2⟩

/-- The properties have separate memory that exists as long as the property does, with one count per cell. -/
theorem C97_memory {fresh : Fresh Nat} {ncell : Nat} {posSym : Int} {ndim : Nat} {fixedSyms : List Int}
    {ops : List MapOp} {w : MapWorld} (h : runMapOps fresh ncell posSym ndim fixedSyms ops = some w) :
    (datIds w).Nodup ∧ ∀ k ∈ datIds w, ∃ a b, w.host k = some a ∧ w.device k = some b ∧
      a.length = w.ncell ∧ b.length = w.ncell := by
  have inv := inv_history h
  refine ⟨inv.nodup, fun k hk => ?_⟩
  obtain ⟨a, h1, h2⟩ := inv.host k hk
  obtain ⟨b, h3, h4⟩ := inv.device k hk
  exact ⟨a, b, h1, h3, h2, h4⟩

/-- Adding a REAL property gives the group a property with that name and number of components and keeps the
others; removing it removes it alone. The positions cannot be removed. -/
theorem C97_reals {fresh : Fresh Nat} {ncell : Nat} {posSym : Int} {ndim : Nat} {fixedSyms : List Int}
    {ops : List MapOp} {w : MapWorld} (_h : runMapOps fresh ncell posSym ndim fixedSyms ops = some w) (s : Int) :
    (∀ n c w', addMapReal s n c w = some w' → (∃ d, omGet w'.reals s = some d ∧ d.ncomp = n) ∧
      w'.ints = w.ints ∧ ∀ t ≠ s, omGet w'.reals t = omGet w.reals t) ∧
    (∀ w', removeMapReal s w = some w' → omGet w'.reals s = none ∧ s ≠ w.posSym ∧ w'.ints = w.ints ∧
      ∀ t ≠ s, omGet w'.reals t = omGet w.reals t) := by
  constructor
  · intro n c w' h
    unfold addMapReal at h
    cases hg : omGet w.reals s with
    | some d =>
      rw [hg] at h
      dsimp only at h
      split at h
      · rename_i hd
        rw [Option.some.injEq] at h
        subst h
        exact ⟨⟨d, hg, hd⟩, rfl, fun _ _ => rfl⟩
      · cases h
    | none =>
      rw [hg] at h
      dsimp only at h
      split at h
      · rw [Option.some.injEq] at h
        subst h
        refine ⟨⟨⟨w.next, n⟩, ?_, rfl⟩, rfl, fun t ht => ?_⟩
        · show omGet (omPut w.reals s _) s = _
          rw [omGet_put, if_pos rfl]; rfl
        · show omGet (omPut w.reals s _) t = _
          rw [omGet_put, if_neg ht.symm]
      · cases h
  · intro w' h
    unfold removeMapReal at h
    rw [Option.bind_eq_some_iff] at h
    obtain ⟨d, hd, h⟩ := h
    split at h
    · cases h
    · rename_i hpos
      rw [Option.some.injEq] at h
      subst h
      exact ⟨omGet_erase_self _ _, hpos, rfl, fun t ht => omGet_erase_ne _ ht⟩

/-- The same for INT properties; the cell ids and the ranks cannot be removed. -/
theorem C97_ints {fresh : Fresh Nat} {ncell : Nat} {posSym : Int} {ndim : Nat} {fixedSyms : List Int}
    {ops : List MapOp} {w : MapWorld} (_h : runMapOps fresh ncell posSym ndim fixedSyms ops = some w) (s : Int) :
    (∀ n c w', addMapInt s n c w = some w' → (∃ d, omGet w'.ints s = some d ∧ d.ncomp = n) ∧
      w'.reals = w.reals ∧ ∀ t ≠ s, omGet w'.ints t = omGet w.ints t) ∧
    (∀ w', removeMapInt s w = some w' → omGet w'.ints s = none ∧ s ∉ w.fixedSyms ∧ w'.reals = w.reals ∧
      ∀ t ≠ s, omGet w'.ints t = omGet w.ints t) := by
  constructor
  · intro n c w' h
    unfold addMapInt at h
    cases hg : omGet w.ints s with
    | some d =>
      rw [hg] at h
      dsimp only at h
      split at h
      · rename_i hd
        rw [Option.some.injEq] at h
        subst h
        exact ⟨⟨d, hg, hd⟩, rfl, fun _ _ => rfl⟩
      · cases h
    | none =>
      rw [hg] at h
      dsimp only at h
      split at h
      · rw [Option.some.injEq] at h
        subst h
        refine ⟨⟨⟨w.next, n⟩, ?_, rfl⟩, rfl, fun t ht => ?_⟩
        · show omGet (omPut w.ints s _) s = _
          rw [omGet_put, if_pos rfl]; rfl
        · show omGet (omPut w.ints s _) t = _
          rw [omGet_put, if_neg ht.symm]
      · cases h
  · intro w' h
    unfold removeMapInt at h
    rw [Option.bind_eq_some_iff] at h
    obtain ⟨d, hd, h⟩ := h
    split at h
    · cases h
    · rename_i hpos
      rw [Option.some.injEq] at h
      subst h
      exact ⟨omGet_erase_self _ _, hpos, rfl, fun t ht => omGet_erase_ne _ ht⟩

namespace Ex

/-- New memory with arbitrary contents. -/
def mapFresh : Fresh Nat := fun n => ⟨List.replicate n 77, by simp⟩

/-- Three cells, positions 5 of two components, ids 1 and 2 fixed. A property 3 is added, read, then 4 is added,
written, 3 is removed, and the counts are set. -/
def mapOps : List MapOp :=
  [.addInt 1 1 [0, 0, 0], .addInt 2 2 [0, 0, 0], .addReal 3 3 [0, 0, 0], .getConst ⟨mapFresh, Sched.inOrder⟩,
    .addReal 4 2 [1, 1, 1], .getWrite ⟨mapFresh, Sched.reversed⟩, .removeReal 3,
    .setCounts ⟨mapFresh, Sched.reversed⟩ [2, 0, 1] [2, 0, 1], .addInt 9 1 [2, 0, 1]]

/-- The history succeeds and leaves two REAL and three INT properties, all with the counts that were set; the map
is not valid at its end because of the last addition. -/
example : ((runMapOps mapFresh 3 5 2 [1, 2] mapOps).map fun w => (w.reals.map (·.1), w.ints.map (·.1), datIds w)) =
    some ([4, 5], [1, 2, 9], [4, 0, 1, 2, 5]) := by decide +kernel

example : ((runMapOps mapFresh 3 5 2 [1, 2] mapOps).map fun w => (w.map.validConst, (datIds w).map w.host)) =
    some (false, List.replicate 5 (some [2, 0, 1])) := by decide +kernel

/-- The map for reading after this history: pointers, components and flattened tables of the INT properties.
Memory beyond the entries keeps what it had. -/
example : ((runMapOps mapFresh 3 5 2 [1, 2] mapOps).bind fun w =>
    (createConst ⟨mapFresh, Sched.inOrder⟩ w).map fun w => (w.map.tInt.ptr, w.map.tInt.exscan, w.map.tReal.ptr)) =
    some ([1, 2, 5], [0, 1, 3], [4, 0, 0]) := by decide +kernel

example : ((runMapOps mapFresh 3 5 2 [1, 2] mapOps).bind fun w =>
    (createConst ⟨mapFresh, Sched.inOrder⟩ w).map fun w => (w.map.tInt.flatDat, w.map.tInt.flatComp, w.map.bytes)) =
    some ([0, 1, 1, 2], [0, 0, 1, 0], 64) := by decide +kernel

/-- A removed property is gone: its memory does not exist any more. -/
example : ((runMapOps mapFresh 3 5 2 [1, 2] mapOps).map fun w => (w.host 3, omGet w.reals 3)) =
    some (none, none) := by decide +kernel

/-- The positions cannot be removed. -/
example : (runMapOps mapFresh 3 5 2 [1, 2] [.removeReal 5]).isNone = true := by decide +kernel

end Ex

end NP
