import Verif.Sub.LemmasCache
import Verif.Common.KernelLemmas

/-!
# C76: a loop given a list of names accesses the particle data of these names
# C77: ephemeral dats belong to the particles a sub group has now
-/

set_option autoImplicit false

namespace NP

open Spec

/-! ## C76 -/

/-- A loop over the group given a list of names accesses, name by name, the particle dats that
the names mean at that time.

Partial: the histories use every name for one particle dat only. `C76_stale_added_again` shows
that the property does not hold of the code after a property was removed and added again. -/
theorem C76_group_partial {w w' : DatWorld} (hw : NameHistory w) {const : Bool}
    {key ps : List Nat} (h : loopVec const key w = some (w', ps)) :
    ps.map some = key.map (groupName w) := by
  obtain ⟨ever, gone, hr⟩ := hw
  have inv := nameInv_run hr
  simp only [loopVec, Option.bind_eq_some_iff, Option.some.injEq, Prod.mk.injEq] at h
  obtain ⟨c, hc, ps', hp, rfl, rfl⟩ := h
  exact groupOk_get (groupOk_create inv.group inv.names hc) hp

/-- A loop over a sub group given a list of names accesses, name by name, the ephemeral dat of
that name if there is one when the loop runs, and the particle dat of the group otherwise.

Partial: as `C76_group_partial`. `C76_stale_added_again_sub`, `C76_stale_ephemeral` and
`C76_stale_shadowed` show that otherwise the property does not hold of the code. -/
theorem C76_sub_partial {w w' : DatWorld} (hw : NameHistory w) {i : Nat} {const : Bool}
    {key ps : List Nat} (h : loopVecSub i const key w = some (w', ps)) :
    ps.map some = key.map (subName w' i) := by
  obtain ⟨ever, gone, hr⟩ := hw
  have inv := nameInv_run hr
  simp only [loopVecSub, Option.bind_eq_some_iff, Option.some.injEq, Prod.mk.injEq] at h
  obtain ⟨n, hn, c, hc, ps', hp, rfl, rfl⟩ := h
  have h1 := subOk_get (subOk_cacheCreate (subOk_enter (inv.subs i) hn).1 inv.names hc) hp
  rw [h1]
  refine List.map_congr_left fun s _ => ?_
  unfold subName groupName
  rw [setSub_self]
  cases he : n.eph s with
  | some d => simp [findDat, he]
  | none =>
    simp only [findDat, he, Option.map_map, DatWorld.setSub]
    rfl

/-- A loop over the group given one name accesses the particle dat that the name means, whatever
happened before, and fails if there is none. -/
theorem C76_one_name (w : DatWorld) (s : Nat) : loopSym s w = groupName w s := by
  simp only [loopSym, findDat_none, groupName, Option.map_map]
  rfl

/-- The same for a loop over a sub group. -/
theorem C76_one_name_sub {w w' : DatWorld} {i s : Nat} {d : DatRef}
    (h : loopSymSub i s w = some (w', d)) : subName w' i s = some d.id := by
  simp only [loopSymSub, Option.bind_eq_some_iff, Option.map_eq_some_iff, Prod.mk.injEq] at h
  obtain ⟨n, -, d', hd, rfl, rfl⟩ := h
  rw [← findDat_subName, hd]; rfl

/-- In such histories the list of names gives what the names give one by one. -/
theorem C76_same_as_one_by_one_partial {w w' : DatWorld} (hw : NameHistory w) {const : Bool}
    {key ps : List Nat} (h : loopVec const key w = some (w', ps)) :
    ps.map some = key.map fun s => loopSym s w := by
  rw [C76_group_partial hw h]
  exact List.map_congr_left fun s _ => (C76_one_name w s).symm

/-- A loop over the group given a list of names runs exactly if every name is that of a particle
dat, whatever happened before. -/
theorem C76_group_runs (w : DatWorld) (const : Bool) (key : List Nat) :
    (loopVec const key w).isSome ↔ ∀ s ∈ key, (groupName w s).isSome := by
  have hf : (findAll w.base none key).isSome ↔ ∀ s ∈ key, (groupName w s).isSome := by
    rw [findAll_isSome]
    simp [findDat_none, groupName]
  rw [← hf]
  unfold loopVec
  cases hc : cacheCreate w.base none const key w.cache with
  | none =>
    simp only [Option.bind_none, Option.isSome_none, Bool.false_eq_true, false_iff]
    unfold cacheCreate at hc
    by_cases hs : ((if const = true then w.cache.cptrs else w.cache.ptrs) key).isSome = true
    · rw [if_pos hs] at hc; cases hc
    · rw [if_neg hs] at hc
      cases hf2 : findAll w.base none key with
      | none => simp
      | some r => rw [hf2] at hc; cases hc
  | some c =>
    simp only [Option.bind_some, cacheGet]
    have hst : (stored const c key).isSome := by
      obtain ⟨r, ⟨rfl, h2⟩ | ⟨b, -, h2, -⟩⟩ := cacheCreate_stored hc <;> simp [h2]
    obtain ⟨ps, hps⟩ := Option.isSome_iff_exists.1 hst
    change (if const = true then c.cptrs else c.ptrs) key = some ps at hps
    rw [hps]
    cases findAll w.base none key <;> simp

/-- A loop over a sub group that is not static and given names of properties of the group runs,
whatever happened before. -/
theorem C76_sub_runs (w : DatWorld) (i : Nat) (const : Bool) (key : List Nat)
    (hst : (w.subs i).static = false) (hk : ∀ s ∈ key, (groupName w s).isSome) :
    (loopVecSub i const key w).isSome := by
  have he : ∃ n, enterSub (w.subs i) = some n := by
    unfold enterSub createSub
    rw [hst]
    split
    · exact ⟨_, rfl⟩
    · split
      · rename_i h; cases h
      · split <;> exact ⟨_, rfl⟩
  obtain ⟨n, hn⟩ := he
  have hf : (findAll w.base (some n.eph) key).isSome := by
    rw [findAll_isSome]
    intro s hs
    cases h : n.eph s with
    | some d => rw [findDat_eph h]; rfl
    | none =>
      rw [findDat_base h]
      have := hk s hs
      unfold groupName at this
      simpa using this
  obtain ⟨r, hr⟩ := Option.isSome_iff_exists.1 hf
  have hc : ∃ c, cacheCreate w.base (some n.eph) const key n.cache = some c := by
    unfold cacheCreate
    rw [hr]
    by_cases hs : ((if const = true then n.cache.cptrs else n.cache.ptrs) key).isSome = true
    · rw [if_pos hs]; exact ⟨_, rfl⟩
    · rw [if_neg hs]; exact ⟨_, rfl⟩
  obtain ⟨c, hc⟩ := hc
  have hst : (stored const c key).isSome := by
    obtain ⟨r, ⟨rfl, h2⟩ | ⟨b, -, h2, -⟩⟩ := cacheCreate_stored hc <;> simp [h2]
  obtain ⟨ps, hps⟩ := Option.isSome_iff_exists.1 hst
  change (if const = true then c.cptrs else c.ptrs) key = some ps at hps
  simp [loopVecSub, hn, hc, cacheGet, hr, hps]

/-! ## Names used again -/

namespace Ex

/-- Sub group 0 is a selection, sub group 1 is the whole group; both have two cells. -/
def datStart : DatWorld := .new (fun i => i == 1) fun _ => [2, 1]

/-- Runs operations on it. -/
def datRun (ops : List DatOp) : Option DatWorld := runItems stepDat ops datStart

end Ex

/-- A property is removed and added again. A loop given the list of names that was used before
accesses the removed particle dat, a loop given the name accesses the new one. -/
theorem C76_stale_added_again : ∃ (w w' : DatWorld) (ps : List Nat),
    Ex.datRun [.addDat 4 1, .addDat 5 2, .loopVec false [4, 5], .removeDat 5, .addDat 5 2] = some w ∧
    loopVec false [4, 5] w = some (w', ps) ∧ ps = [0, 1] ∧
    loopSym 4 w = some 0 ∧ loopSym 5 w = some 2 := by
  refine ⟨_, _, _, rfl, rfl, ?_, ?_, ?_⟩ <;> decide

/-- The same in a loop over a sub group, where the sub group is made anew in between. -/
theorem C76_stale_added_again_sub : ∃ (w w' w'' : DatWorld) (ps : List Nat) (d : DatRef),
    Ex.datRun [.addDat 4 1, .addDat 5 2, .loopVecSub 0 true [4, 5], .removeDat 5, .addDat 5 2,
      .change (fun _ => [3, 1])] = some w ∧
    loopVecSub 0 true [4, 5] w = some (w', ps) ∧ ps = [0, 1] ∧
    loopSymSub 0 5 w = some (w'', d) ∧ d.id = 2 := by
  refine ⟨_, _, _, _, _, rfl, rfl, ?_, rfl, ?_⟩ <;> decide

/-- An ephemeral dat is removed and added again while the sub group does not change: the loop
given the list of names accesses the removed one. -/
theorem C76_stale_ephemeral : ∃ (w w' w'' : DatWorld) (ps : List Nat) (d : DatRef),
    Ex.datRun [.addDat 4 1, .addEph 0 9 2, .loopVecSub 0 false [4, 9], .removeEph 0 9,
      .addEph 0 9 2] = some w ∧
    loopVecSub 0 false [4, 9] w = some (w', ps) ∧ ps = [0, 1] ∧
    loopSymSub 0 9 w = some (w'', d) ∧ d.id = 2 := by
  refine ⟨_, _, _, _, _, rfl, rfl, ?_, rfl, ?_⟩ <;> decide

/-- An ephemeral dat gets the name of a property: a list of names that was used before still
accesses the property, a name or a new list accesses the ephemeral dat. -/
theorem C76_stale_shadowed : ∃ (w w' w'' w''' : DatWorld) (ps qs : List Nat) (d : DatRef),
    Ex.datRun [.addDat 4 1, .loopVecSub 0 false [4], .addEph 0 4 1] = some w ∧
    loopVecSub 0 false [4] w = some (w', ps) ∧ ps = [0] ∧
    loopSymSub 0 4 w = some (w'', d) ∧ d.id = 1 ∧
    loopVecSub 0 false [4, 4] w = some (w''', qs) ∧ qs = [1, 1] := by
  refine ⟨_, _, _, _, _, _, _, rfl, rfl, ?_, rfl, ?_, rfl, ?_⟩ <;> decide

/-! ## C77 -/

/-- When a loop over a sub group runs, every ephemeral dat that it can name has in every cell
exactly one row for each particle that the sub group has there now.

Partial: for a sub group which is not one of the whole particle group; `C77_whole_group_stale`
shows that the property does not hold of the code for those. A static sub group keeps the
particles it has. -/
theorem C77_rows_partial {w w' : DatWorld} (hw : DatReach w) {i s : Nat} {d : DatRef}
    (hwh : (w.subs i).whole = false) (h : loopSymSub i s w = some (w', d)) :
    (∀ t e, (w'.subs i).eph t = some e → e.rows = (w'.subs i).sel) ∧
    ((w.subs i).static = false → (w'.subs i).sel = (w.subs i).now) := by
  have hsub := (datInv_iff.1 (datInv_reach hw)).1 i
  simp only [loopSymSub, Option.bind_eq_some_iff, Option.map_eq_some_iff, Prod.mk.injEq] at h
  obtain ⟨n, hn, d', -, rfl, -⟩ := h
  simp only [enterSub, hwh, Bool.false_eq_true, if_false] at hn
  obtain ⟨h1, h2⟩ := subInvD_create hsub hn
  rw [setSub_self]
  refine ⟨fun t e he => (h1.rows t e he).1, fun hst => ?_⟩
  rcases createSub_cases hn with ⟨rfl, -, h3⟩ | ⟨-, rfl⟩
  · exact hsub.now (h3 hst).1 (h3 hst).2
  · rfl

/-- The same for a loop given a list of names. -/
theorem C77_rows_vector_partial {w w' : DatWorld} (hw : DatReach w) {i : Nat} {const : Bool}
    {key ps : List Nat} (hwh : (w.subs i).whole = false)
    (h : loopVecSub i const key w = some (w', ps)) :
    (∀ t e, (w'.subs i).eph t = some e → e.rows = (w'.subs i).sel) ∧
    ((w.subs i).static = false → (w'.subs i).sel = (w.subs i).now) := by
  have hsub := (datInv_iff.1 (datInv_reach hw)).1 i
  simp only [loopVecSub, Option.bind_eq_some_iff, Option.some.injEq, Prod.mk.injEq] at h
  obtain ⟨n, hn, c, hc, ps', -, rfl, -⟩ := h
  simp only [enterSub, hwh, Bool.false_eq_true, if_false] at hn
  obtain ⟨h1, h2⟩ := subInvD_create hsub hn
  rw [setSub_self]
  refine ⟨fun t e he => (h1.rows t e he).1, fun hst => ?_⟩
  rcases createSub_cases hn with ⟨rfl, -, h3⟩ | ⟨-, rfl⟩
  · exact hsub.now (h3 hst).1 (h3 hst).2
  · rfl

/-- After `add_ephemeral_dat` the sub group has an ephemeral dat of that name with that number of
components and a row for each particle the sub group has now. It is the one it had, if it had one
and the particles of the sub group did not change, and otherwise a new one, different from all
other particle data. -/
theorem C77_add {w w' : DatWorld} (hw : DatReach w) {i s ncomp : Nat}
    (h : addEph i s ncomp w = some w') :
    ∃ d, getEph i s w' = some (w', d) ∧ (containsEph i s w').2 = true ∧ d.ncomp = ncomp ∧
      d.rows = (w'.subs i).sel ∧ ((w.subs i).static = false → (w'.subs i).sel = (w.subs i).now) ∧
      (if (containsEph i s w).2 then (w.subs i).eph s = some d
       else (∀ j t e, (w.subs j).eph t = some e → e.id ≠ d.id) ∧
         ∀ t e, w.base t = some e → e.id ≠ d.id) := by
  have inv := datInv_reach hw
  have hsub := (datInv_iff.1 inv).1 i
  rw [addEph_eq, Option.bind_eq_some_iff] at h
  obtain ⟨n0, hn0, hs⟩ := h
  obtain ⟨hn1, hn2⟩ := subInvD_create hsub hn0
  have hi := invalidateEph_create hn0
  have hnow : (w.subs i).static = false → n0.sel = (w.subs i).now := by
    intro hst
    rcases createSub_cases hn0 with ⟨rfl, -, h3⟩ | ⟨-, rfl⟩
    · exact hsub.now (h3 hst).1 (h3 hst).2
    · rfl
  have heph : n0.eph = (invalidateEph (w.subs i)).eph := by
    rcases createSub_cases hn0 with ⟨rfl, -⟩ | ⟨hst, rfl⟩
    · rw [hi]
    · unfold createSub at hn0
      rw [hst] at hn0
      simp only [Bool.false_eq_true, if_false] at hn0
      by_cases hc : ((w.subs i).groupChanged || (w.subs i).datsChanged) = true
      · have hf : (if (w.subs i).static = true then (w.subs i).groupChanged
            else (w.subs i).groupChanged || (w.subs i).datsChanged) = true := by simpa [hst] using hc
        rw [invalidateEph, if_pos hf]; rfl
      · rw [if_neg hc] at hn0
        have := congrArg (fun x => x.map SubDats.version) hn0
        simp [resetEph] at this
  have hcon : (containsEph i s w).2 = (n0.eph s).isSome := by
    simp only [containsEph, heph]
  have hsame : n0.eph s ≠ none → n0.eph s = (w.subs i).eph s := by
    intro hne
    rw [heph] at hne ⊢
    rcases invalidateEph_cases (w.subs i) with e | e
    · rw [e]
    · rw [e] at hne; exact absurd rfl hne
  split at hs
  swap
  · cases hs
  split at hs
  · rename_i d hd
    split at hs
    swap
    · cases hs
    rename_i hnc
    obtain rfl := Option.some.inj hs
    refine ⟨d, ?_, ?_, hnc, ?_, ?_, ?_⟩
    · rw [getEph_eq, setSub_self, hi, hd, setSub_setSub]; rfl
    · simp only [containsEph, setSub_self, hi, hd]; rfl
    · rw [setSub_self]; exact (hn1.rows s d hd).1
    · rw [setSub_self]; exact hnow
    · rw [hcon, hd]
      simp only [Option.isSome_some, if_true]
      rw [← hsame (by rw [hd]; simp), hd]
  · rename_i hd
    obtain rfl := Option.some.inj hs
    have hi2 : invalidateEph { n0 with
        eph := Function.update n0.eph s (some ⟨w.next, ncomp, n0.sel⟩) } = { n0 with
        eph := Function.update n0.eph s (some ⟨w.next, ncomp, n0.sel⟩) } := by
      have hfl : ¬ (if n0.static = true then n0.groupChanged
          else n0.groupChanged || n0.datsChanged) = true := by
        rcases createSub_cases hn0 with ⟨rfl, h1, h2⟩ | ⟨h1, rfl⟩
        · cases hst : (w.subs i).static with
          | true => simp [h1 hst]
          | false => simp [h2 hst]
        · simp [resetEph, h1]
      unfold invalidateEph
      exact if_neg hfl
    refine ⟨⟨w.next, ncomp, n0.sel⟩, ?_, ?_, rfl, ?_, ?_, ?_⟩
    · rw [getEph_eq]
      simp only [DatWorld.setSub, Function.update_self, hi2, Option.map_some,
        Function.update_idem]
    · simp only [containsEph, DatWorld.setSub, Function.update_self, hi2]; rfl
    · simp [DatWorld.setSub]
    · intro hst; simpa [DatWorld.setSub] using hnow hst
    · rw [hcon, hd]
      simp only [Option.isSome_none, Bool.false_eq_true, if_false]
      exact ⟨fun j t e he => Nat.ne_of_lt (inv.ids j t e he),
        fun t e he => Nat.ne_of_lt (inv.baseIds t e he)⟩

/-- Adding an ephemeral dat that exists with another number of components, or with no components,
fails an assertion. -/
theorem C77_add_rejected {w : DatWorld} {i s ncomp : Nat}
    (h : ncomp = 0 ∨ ∃ d, getEph i s w = some (w, d) ∧ d.ncomp ≠ ncomp ∧
      (w.subs i).groupChanged = false ∧ (w.subs i).datsChanged = false) :
    addEph i s ncomp w = none := by
  rw [addEph_eq]
  rcases h with rfl | ⟨d, hd, hne, h1, h2⟩
  · cases createSub (w.subs i) <;> simp
  · have hc : createSub (w.subs i) = some (w.subs i) := by simp [createSub, h1, h2]
    rw [getEph_eq] at hd
    have hi : invalidateEph (w.subs i) = w.subs i := invalidateEph_create hc
    rw [hi, Option.map_eq_some_iff] at hd
    obtain ⟨d', hd', e⟩ := hd
    obtain ⟨-, rfl⟩ := Prod.mk.inj e
    rw [hc]
    simp [hd', hne]

/-- After particles were added, removed or moved, a sub group has no ephemeral dats: it is said
not to have them, and a loop that names one fails, or accesses the property of the group of that
name if there is one.

Partial: as `C77_rows_partial`. -/
theorem C77_gone_after_change_partial (w : DatWorld) (counts : Nat → List Nat) (i s : Nat) :
    (containsEph i s (changeParticles counts w)).2 = false ∧
    ((w.subs i).whole = false → ∀ w' d,
      loopSymSub i s (changeParticles counts w) = some (w', d) →
      (∀ t, (w'.subs i).eph t = none) ∧ w.base s = some d) := by
  constructor
  · simp [containsEph, invalidateEph, changeParticles, resetEph]
  · intro hwh w' d h
    simp only [loopSymSub, Option.bind_eq_some_iff, Option.map_eq_some_iff, Prod.mk.injEq] at h
    obtain ⟨n, hn, ⟨d1, b1⟩, hd, rfl, rfl⟩ := h
    have hw1 : ((changeParticles counts w).subs i).whole = false := hwh
    simp only [enterSub, hw1, Bool.false_eq_true, if_false] at hn
    have hall : ∀ t, n.eph t = none := by
      rcases createSub_cases hn with ⟨rfl, h1, h2⟩ | ⟨-, rfl⟩
      · exfalso
        have hg : ((changeParticles counts w).subs i).groupChanged = true := rfl
        cases hs : ((changeParticles counts w).subs i).static with
        | true => rw [h1 hs] at hg; cases hg
        | false => rw [(h2 hs).1] at hg; cases hg
      · exact fun t => rfl
    rw [setSub_self]
    refine ⟨hall, ?_⟩
    rw [findDat_base (hall s), Option.map_eq_some_iff] at hd
    obtain ⟨d2, hd2, e⟩ := hd
    obtain ⟨rfl, -⟩ := Prod.mk.inj e
    exact hd2

/-- The same after a property was written on which a sub group that is not static depends. -/
theorem C77_gone_after_write (w : DatWorld) (uses : Nat → Bool) (counts : Nat → List Nat)
    (i s : Nat) (hu : uses i = true) (hwh : (w.subs i).whole = false)
    (hst : (w.subs i).static = false) :
    (containsEph i s (writeProperty uses counts w)).2 = false ∧
    ∀ w' d, loopSymSub i s (writeProperty uses counts w) = some (w', d) →
      (∀ t, (w'.subs i).eph t = none) ∧ w.base s = some d := by
  have hsub : (writeProperty uses counts w).subs i =
      { w.subs i with datsChanged := true, now := counts i } := by
    simp [writeProperty, hu, hwh]
  constructor
  · simp [containsEph, invalidateEph, hsub, resetEph, hst]
  · intro w' d h
    simp only [loopSymSub, Option.bind_eq_some_iff, Option.map_eq_some_iff, Prod.mk.injEq] at h
    obtain ⟨n, hn, ⟨d1, b1⟩, hd, rfl, rfl⟩ := h
    rw [hsub] at hn
    simp only [enterSub, hwh, Bool.false_eq_true, if_false] at hn
    have hall : ∀ t, n.eph t = none := by
      rcases createSub_cases hn with ⟨rfl, h1, h2⟩ | ⟨-, rfl⟩
      · have := (h2 hst).2; cases this
      · exact fun t => rfl
    rw [setSub_self]
    refine ⟨hall, ?_⟩
    rw [findDat_base (hall s), Option.map_eq_some_iff] at hd
    obtain ⟨d2, hd2, e⟩ := hd
    obtain ⟨rfl, -⟩ := Prod.mk.inj e
    exact hd2

/-- After `remove_ephemeral_dat` the sub group does not have it, and has every other one. -/
theorem C77_remove {w w' : DatWorld} {i s : Nat} (h : removeEph i s w = some w') :
    (containsEph i s w).2 = true ∧ (containsEph i s w').2 = false ∧
      ∀ t, t ≠ s → (getEph i t w').map Prod.snd = (getEph i t w).map Prod.snd := by
  rw [removeEph_eq] at h
  dsimp only at h
  split at h
  swap
  · cases h
  rename_i hs
  obtain rfl := Option.some.inj h
  have hfl : ¬ (if (w.subs i).static = true then (w.subs i).groupChanged
      else (w.subs i).groupChanged || (w.subs i).datsChanged) = true := by
    intro hf
    rw [invalidateEph, if_pos hf] at hs
    simp [resetEph] at hs
  have hne : invalidateEph (w.subs i) = w.subs i := by
    unfold invalidateEph; exact if_neg hfl
  rw [hne] at hs ⊢
  have hne2 : invalidateEph { w.subs i with eph := Function.update (w.subs i).eph s none } =
      { w.subs i with eph := Function.update (w.subs i).eph s none } := by
    unfold invalidateEph; exact if_neg hfl
  refine ⟨?_, ?_, fun t ht => ?_⟩
  · simp only [containsEph, hne, hs]
  · simp only [containsEph, setSub_self, hne2]; simp
  · rw [getEph_eq, getEph_eq, setSub_self, hne2, hne]
    dsimp only
    rw [Function.update_of_ne ht]
    simp only [Option.map_map]
    rfl

/-- The operations that leave ephemeral dat `s` of sub group `i` alone: particles are not added,
removed or moved, no property is written on which the sub group depends, and the dat is not
removed. Everything else may happen. -/
def KeepsEph (i s : Nat) : DatOp → Prop
  | .change _ => False
  | .write uses _ => uses i = false
  | .removeEph j t => ¬ (j = i ∧ t = s)
  | _ => True

theorem keepsEph_step {w w' : DatWorld} {i s : Nat} {d : DatRef} {op : DatOp}
    (hk : KeepsEph i s op) (hs : stepDat op w = some w') (hd : (w.subs i).eph s = some d)
    (h1 : (w.subs i).groupChanged = false) (h2 : (w.subs i).datsChanged = false) :
    (w'.subs i).eph s = some d ∧ (w'.subs i).groupChanged = false ∧
      (w'.subs i).datsChanged = false := by
  have hcr : ∀ n, createSub (w.subs i) = some n → n = w.subs i := by
    intro n hn
    simp [createSub, h1, h2] at hn
    exact hn.symm
  have hinv : invalidateEph (w.subs i) = w.subs i := by simp [invalidateEph, h1, h2]
  have hset : ∀ (j : Nat) (n : SubDats), (j = i → n.eph s = some d ∧ n.groupChanged = false ∧
      n.datsChanged = false) → ((w.setSub j n).subs i).eph s = some d ∧
      ((w.setSub j n).subs i).groupChanged = false ∧
      ((w.setSub j n).subs i).datsChanged = false := by
    intro j n hn
    rw [setSub_subs]
    by_cases e : i = j
    · rw [if_pos e]; exact hn e.symm
    · rw [if_neg e]; exact ⟨hd, h1, h2⟩
  cases op with
  | addDat t ncomp =>
    change addDat t ncomp w = some w' at hs
    unfold addDat at hs
    split at hs
    · split at hs
      · obtain rfl := Option.some.inj hs; exact ⟨hd, h1, h2⟩
      · cases hs
    · obtain rfl := Option.some.inj hs; exact ⟨hd, h1, h2⟩
  | removeDat t =>
    change removeDat t w = some w' at hs
    unfold removeDat at hs
    split at hs
    · obtain rfl := Option.some.inj hs; exact ⟨hd, h1, h2⟩
    · cases hs
  | change counts => exact hk.elim
  | write uses counts =>
    obtain rfl := Option.some.inj hs
    have : uses i = false := hk
    simp only [writeProperty, this, Bool.false_and, Bool.false_eq_true, if_false]
    exact ⟨hd, h1, h2⟩
  | setStatic j b =>
    change setStaticSub j b w = some w' at hs
    unfold setStaticSub at hs
    dsimp only at hs
    split at hs
    · obtain rfl := Option.some.inj hs; exact ⟨hd, h1, h2⟩
    · rw [Option.map_eq_some_iff] at hs
      obtain ⟨n1, hn1, rfl⟩ := hs
      refine hset j _ ?_
      rintro rfl
      have : n1 = w.subs j := by
        cases b with
        | true => rw [if_pos rfl] at hn1; exact hcr n1 hn1
        | false =>
          simp only [Bool.false_eq_true, if_false, Option.some.injEq] at hn1
          exact hn1.symm
      subst this
      exact ⟨hd, h1, h2⟩
  | use j =>
    simp only [stepDat, Option.map_eq_some_iff] at hs
    obtain ⟨n, hn, rfl⟩ := hs
    refine hset j n ?_
    rintro rfl
    rw [hcr n hn]; exact ⟨hd, h1, h2⟩
  | addEph j t ncomp =>
    change addEph j t ncomp w = some w' at hs
    rw [addEph_eq, Option.bind_eq_some_iff] at hs
    obtain ⟨n0, hn0, hs⟩ := hs
    split at hs
    swap
    · cases hs
    split at hs
    · split at hs
      swap
      · cases hs
      obtain rfl := Option.some.inj hs
      refine hset j n0 ?_
      rintro rfl
      rw [hcr n0 hn0]; exact ⟨hd, h1, h2⟩
    · rename_i he
      obtain rfl := Option.some.inj hs
      refine hset j _ ?_
      rintro rfl
      obtain rfl := hcr n0 hn0
      have : s ≠ t := by rintro rfl; rw [hd] at he; cases he
      dsimp only
      rw [Function.update_of_ne this]
      exact ⟨hd, h1, h2⟩
  | removeEph j t =>
    change removeEph j t w = some w' at hs
    rw [removeEph_eq] at hs
    dsimp only at hs
    split at hs
    swap
    · cases hs
    obtain rfl := Option.some.inj hs
    refine hset j _ ?_
    rintro rfl
    have hst : s ≠ t := by rintro rfl; exact hk ⟨rfl, rfl⟩
    dsimp only
    rw [hinv, Function.update_of_ne hst]
    exact ⟨hd, h1, h2⟩
  | containsEph j t =>
    obtain rfl := Option.some.inj hs
    refine hset j _ ?_
    rintro rfl
    rw [hinv]; exact ⟨hd, h1, h2⟩
  | loopVec const key =>
    simp only [stepDat, Option.map_eq_some_iff] at hs
    obtain ⟨⟨w1, ps⟩, hl, rfl⟩ := hs
    simp only [loopVec, Option.bind_eq_some_iff, Option.some.injEq, Prod.mk.injEq] at hl
    obtain ⟨c, hc, ps', -, rfl, -⟩ := hl
    exact ⟨hd, h1, h2⟩
  | loopVecSub j const key =>
    simp only [stepDat, Option.map_eq_some_iff] at hs
    obtain ⟨⟨w1, ps⟩, hl, rfl⟩ := hs
    simp only [loopVecSub, Option.bind_eq_some_iff, Option.some.injEq, Prod.mk.injEq] at hl
    obtain ⟨n, hn, c, hc, ps', -, rfl, -⟩ := hl
    refine hset j _ ?_
    rintro rfl
    have : n = w.subs j := by
      unfold enterSub at hn
      split at hn
      · exact (Option.some.inj hn).symm
      · exact hcr n hn
    subst this
    exact ⟨hd, h1, h2⟩
  | loopSymSub j t =>
    simp only [stepDat, Option.map_eq_some_iff] at hs
    obtain ⟨⟨w1, d1⟩, hl, rfl⟩ := hs
    simp only [loopSymSub, Option.bind_eq_some_iff, Option.map_eq_some_iff, Prod.mk.injEq] at hl
    obtain ⟨n, hn, d', -, rfl, -⟩ := hl
    refine hset j _ ?_
    rintro rfl
    have : n = w.subs j := by
      unfold enterSub at hn
      split at hn
      · exact (Option.some.inj hn).symm
      · exact hcr n hn
    subst this
    exact ⟨hd, h1, h2⟩

/-- An ephemeral dat of a sub group that is not static is kept, with what is stored in it, as long
as none of the operations happens that end it. -/
theorem C77_kept {w0 w w' : DatWorld} {i s ncomp : Nat} (h0 : addEph i s ncomp w0 = some w)
    (hst : (w0.subs i).static = false) {ops : List DatOp} (hk : ∀ op ∈ ops, KeepsEph i s op)
    (hr : runItems stepDat ops w = some w') :
    ∃ d, (getEph i s w).map Prod.snd = some d ∧ (getEph i s w').map Prod.snd = some d := by
  have hstart : ∃ d, (w.subs i).eph s = some d ∧ (w.subs i).groupChanged = false ∧
      (w.subs i).datsChanged = false := by
    rw [addEph_eq, Option.bind_eq_some_iff] at h0
    obtain ⟨n0, hn0, hs⟩ := h0
    have hfl : n0.groupChanged = false ∧ n0.datsChanged = false := by
      rcases createSub_cases hn0 with ⟨rfl, -, h2⟩ | ⟨-, rfl⟩
      · exact h2 hst
      · exact ⟨rfl, rfl⟩
    split at hs
    swap
    · cases hs
    split at hs
    · rename_i d hd
      split at hs
      swap
      · cases hs
      obtain rfl := Option.some.inj hs
      refine ⟨d, ?_⟩
      rw [setSub_self]
      exact ⟨hd, hfl⟩
    · obtain rfl := Option.some.inj hs
      refine ⟨⟨w0.next, ncomp, n0.sel⟩, ?_⟩
      simp [DatWorld.setSub, hfl]
  obtain ⟨d, hd, h1, h2⟩ := hstart
  clear h0 hst
  have fin : ∀ u : DatWorld, (u.subs i).eph s = some d → (u.subs i).groupChanged = false →
      (u.subs i).datsChanged = false → (getEph i s u).map Prod.snd = some d := by
    intro u a b c
    have : invalidateEph (u.subs i) = u.subs i := by simp [invalidateEph, b, c]
    rw [getEph_eq, this, a]; rfl
  refine ⟨d, fin w hd h1 h2, ?_⟩
  induction ops generalizing w with
  | nil => obtain rfl := Option.some.inj hr; exact fin w hd h1 h2
  | cons op ops ih =>
    rw [runItems_cons, Option.bind_eq_some_iff] at hr
    obtain ⟨u, hu, hr⟩ := hr
    obtain ⟨a, b, c⟩ := keepsEph_step (hk op List.mem_cons_self) hu hd h1 h2
    exact ih (fun o ho => hk o (List.mem_cons_of_mem _ ho)) hr a b c

/-- A sub group of the whole particle group: after particles were added, a loop over it accesses
the ephemeral dat made before, which has two rows in the first cell where the loop visits five
particles, although the sub group is said not to have an ephemeral dat of that name. -/
theorem C77_whole_group_stale : ∃ (w w' : DatWorld) (d : DatRef),
    Ex.datRun [.addDat 4 1, .addEph 1 9 2, .change (fun _ => [5, 1])] = some w ∧
    loopSymSub 1 9 w = some (w', d) ∧ d.rows = [2, 1] ∧ (w'.subs 1).now = [5, 1] ∧
    (containsEph 1 9 w).2 = false := by
  refine ⟨_, _, _, rfl, rfl, ?_, ?_, ?_⟩ <;> decide

/-! ## Concrete cases -/

namespace Ex

theorem reach_of_datRun {ops : List DatOp} : ∀ {w w' : DatWorld}, DatReach w →
    runItems stepDat ops w = some w' → DatReach w' := by
  induction ops with
  | nil => intro w w' h hr; obtain rfl := Option.some.inj hr; exact h
  | cons op ops ih =>
    intro w w' h hr
    rw [runItems_cons, Option.bind_eq_some_iff] at hr
    obtain ⟨u, hu, hr⟩ := hr
    exact ih (.step op h hu) hr

/-- Properties, ephemeral dats in a sub group that changes twice, lists of names before and after,
and a property that is removed for good. -/
def busyDats : List DatOp :=
  [.addDat 4 1, .addDat 5 2, .loopVec false [4, 5], .addEph 0 9 2, .loopVecSub 0 false [9, 4],
   .loopVecSub 0 true [5], .removeEph 0 9, .change (fun _ => [3, 1]), .addEph 0 9 1,
   .loopVecSub 0 false [9, 4], .removeDat 5, .addDat 6 1, .write (fun _ => true) (fun _ => [1, 1]),
   .addEph 0 9 1, .addEph 1 9 3]

/-- The state after it. -/
def busyWorld : DatWorld := (datRun busyDats).getD datStart

theorem busy_history : NameHistory busyWorld := by
  have h0 : NameRun (fun _ => false) (fun _ _ => false) datStart := .new _ _
  have h1 := NameRun.step (.addDat 4 1) h0 (fun _ => ⟨rfl, fun _ => rfl⟩) rfl
  have h2 := NameRun.step (.addDat 5 2) h1 (fun _ => ⟨by decide, fun _ => rfl⟩) rfl
  have h3 := NameRun.step (.loopVec false [4, 5]) h2 trivial rfl
  have h4 := NameRun.step (.addEph 0 9 2) h3 ⟨by decide, fun h => absurd h (by decide)⟩ rfl
  have h5 := NameRun.step (.loopVecSub 0 false [9, 4]) h4 trivial rfl
  have h6 := NameRun.step (.loopVecSub 0 true [5]) h5 trivial rfl
  have h7 := NameRun.step (.removeEph 0 9) h6 rfl rfl
  have h8 := NameRun.step (.change fun _ => [3, 1]) h7 trivial rfl
  have h9 := NameRun.step (.addEph 0 9 1) h8 ⟨by decide, fun _ w' hw' => by
    have e := congrArg (Option.map fun u : DatWorld => (u.subs 0).version) hw'
    have e' : some 2 = some (w'.subs 0).version := e
    exact fun hv => absurd ((Option.some.inj e').trans hv) (by decide)⟩ rfl
  have h10 := NameRun.step (.loopVecSub 0 false [9, 4]) h9 trivial rfl
  have h11 := NameRun.step (.removeDat 5) h10 trivial rfl
  have h12 := NameRun.step (.addDat 6 1) h11 (fun _ => ⟨by decide, fun i => by
    cases i <;> rfl⟩) rfl
  have h13 := NameRun.step (.write (fun _ => true) (fun _ => [1, 1])) h12 trivial rfl
  have h14 := NameRun.step (.addEph 0 9 1) h13 ⟨by decide, fun h => absurd h (by decide)⟩ rfl
  have h15 := NameRun.step (.addEph 1 9 3) h14 ⟨by decide, fun h => absurd h (by decide)⟩ rfl
  exact ⟨_, _, h15⟩

/-- The list of names accesses the third ephemeral dat of that name, the property that was there
all the time and the new property. -/
example : ((loopVecSub 0 false [9, 4, 6] busyWorld).map Prod.snd) = some [5, 0, 4] ∧
    ((loopVecSub 0 false [9, 4] busyWorld).map Prod.snd) = some [5, 0] ∧
    ((loopVecSub 1 false [9, 4] busyWorld).map Prod.snd) = some [6, 0] ∧
    ((loopVec false [4, 6] busyWorld).map Prod.snd) = some [0, 4] ∧
    ((loopVec false [4, 5] busyWorld).map Prod.snd) = none := by decide

example (w' : DatWorld) (ps : List Nat)
    (h : loopVecSub 0 false [9, 4] busyWorld = some (w', ps)) :
    ps.map some = [9, 4].map (subName w' 0) := C76_sub_partial busy_history h

example : DatReach busyWorld := reach_of_datRun (w := datStart) (ops := busyDats) (.new _ _) rfl

/-- The ephemeral dat is as long as the selection now is; the one of the whole group is longer. -/
example : ((loopSymSub 0 9 busyWorld).map fun r => (r.2.rows, r.2.ncomp)) = some ([1, 1], 1) ∧
    ((loopSymSub 1 9 busyWorld).map fun r => (r.2.rows, r.2.ncomp)) = some ([3, 1], 3) := by decide

/-- After another change the name means nothing. -/
example : loopSymSub 0 9 (changeParticles (fun _ => [0, 4]) busyWorld) = none ∧
    (containsEph 0 9 busyWorld).2 = true := ⟨rfl, by decide⟩

/-- A dat kept through loops, other sub groups' dats and writes of other properties. -/
example : ∃ d, ((datRun [.addEph 0 9 2]).bind fun w => (getEph 0 9 w).map Prod.snd) = some d ∧
    ((datRun [.addEph 0 9 2, .addDat 4 1, .loopVecSub 0 false [4, 9], .removeDat 4,
      .write (fun i => i == 3) (fun _ => [9]), .addEph 1 9 1, .removeEph 1 9, .setStatic 0 true,
      .setStatic 0 false]).bind fun w => (getEph 0 9 w).map Prod.snd) = some d := by
  obtain ⟨d, h1, h2⟩ := C77_kept (w0 := datStart) (i := 0) (s := 9) (ncomp := 2) rfl rfl
    (ops := [.addDat 4 1, .loopVecSub 0 false [4, 9], .removeDat 4,
      .write (fun i => i == 3) (fun _ => [9]), .addEph 1 9 1, .removeEph 1 9, .setStatic 0 true,
      .setStatic 0 false]) (by simp [KeepsEph]) rfl
  exact ⟨d, h1, h2⟩

example : addEph 0 9 2 busyWorld = none := C77_add_rejected (.inr ⟨⟨5, 1, [1, 1]⟩, by
  rw [getEph_eq]
  have hi : invalidateEph (busyWorld.subs 0) = busyWorld.subs 0 := rfl
  have hs : busyWorld.setSub 0 (busyWorld.subs 0) = busyWorld := by
    simp [DatWorld.setSub]
  rw [hi, hs]; rfl, by decide, rfl, rfl⟩)

example : ∃ w', removeEph 0 9 busyWorld = some w' := ⟨_, rfl⟩

end Ex

end NP
