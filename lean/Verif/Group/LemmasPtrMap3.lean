import Verif.Group.LemmasPtrMap2
import Mathlib.Data.List.Nodup

/-!
# Lemmas: adding and removing properties
-/

set_option autoImplicit false

namespace NP

open Spec

/-- What a new entry does to a map that has no entry with this name. -/
theorem omPut_perm {α : Type} (m : OMap α) (k : Int) (v : α) (h : omGet m k = none) :
    (omPut m k v).Perm ((k, v) :: m) := by
  induction m with
  | nil => exact List.Perm.refl _
  | cons e m ih =>
    rw [omGet_cons] at h
    have hne : e.1 ≠ k := by intro h0; rw [if_pos h0] at h; cases h
    rw [if_neg hne] at h
    unfold omPut
    split
    · exact List.Perm.refl _
    · rw [if_neg (fun h0 => hne h0.symm)]
      exact ((ih h).cons e).trans (List.Perm.swap _ _ _)

theorem omErase_ok {α : Type} {m : OMap α} (h : OMapOk m) (k : Int) : OMapOk (omErase m k) := by
  unfold OMapOk omErase at *
  exact List.Pairwise.sublist (List.Sublist.map _ List.filter_sublist) h

theorem omGet_erase_ne {α : Type} (m : OMap α) {k j : Int} (h : j ≠ k) : omGet (omErase m k) j = omGet m j := by
  induction m with
  | nil => rfl
  | cons e m ih =>
    unfold omErase at ih ⊢
    rw [List.filter_cons]
    by_cases hk : e.1 = k
    · rw [if_neg (by simpa using hk), ih, omGet_cons, if_neg (by rw [hk]; exact h.symm)]
    · rw [if_pos (by simpa using hk), omGet_cons, omGet_cons, ih]

theorem omGet_erase_self {α : Type} (m : OMap α) (k : Int) : omGet (omErase m k) k = none := by
  induction m with
  | nil => rfl
  | cons e m ih =>
    unfold omErase at ih ⊢
    rw [List.filter_cons]
    by_cases hk : e.1 = k
    · rw [if_neg (by simpa using hk), ih]
    · rw [if_pos (by simpa using hk), omGet_cons, if_neg hk, ih]

/-- The dat that is removed is not among those that remain. -/
theorem erase_ids {m : OMap MapDat} {k : Int} {d : MapDat} (hd : omGet m k = some d)
    (hn : (m.map (·.2.id)).Nodup) : d.id ∉ (omErase m k).map (·.2.id) := by
  intro hmem
  obtain ⟨e, he, hid⟩ := List.mem_map.mp hmem
  unfold omErase at he
  rw [List.mem_filter] at he
  have h1 := omGet_some_mem hd
  have h2 : e = (k, d) := List.inj_on_of_nodup_map hn he.1 h1 hid
  have h3 := he.2
  rw [h2] at h3
  simp at h3

theorem inv_addReal {w w' : MapWorld} (inv : PtrMapInv w) {s : Int} {n : Nat} {c : List Int}
    (h : addMapReal s n c w = some w') : PtrMapInv w' := by
  unfold addMapReal at h
  cases hg : omGet w.reals s with
  | some d =>
    rw [hg] at h
    dsimp only at h
    split at h
    · rw [Option.some.injEq] at h; exact h ▸ inv
    · cases h
  | none =>
    rw [hg] at h
    dsimp only at h
    split at h
    · rename_i hc
      rw [Option.some.injEq] at h
      subst h
      have hperm : (omPut w.reals s ⟨w.next, n⟩).Perm ((s, ⟨w.next, n⟩) :: w.reals) := omPut_perm _ _ _ hg
      have hids : (omPut w.reals s ⟨w.next, n⟩).map (·.2.id) ++ w.ints.map (·.2.id) |>.Perm (w.next :: datIds w) := by
        have := (hperm.map (·.2.id)).append_right (w.ints.map (·.2.id))
        simpa [datIds] using this
      have hnew : w.next ∉ datIds w := fun h0 => absurd (inv.lt _ h0) (by omega)
      refine ⟨omPut_ok inv.okR _ _, inv.okI, ?_, ?_, ?_, ?_, ?_, ?_, ?_⟩
      · exact hids.nodup_iff.mpr (List.nodup_cons.mpr ⟨hnew, inv.nodup⟩)
      · intro k hk
        rcases List.mem_cons.mp (hids.mem_iff.mp hk) with rfl | hk
        · exact Nat.lt_succ_self _
        · exact Nat.lt_succ_of_lt (inv.lt k hk)
      · intro k hk
        rcases List.mem_cons.mp (hids.mem_iff.mp hk) with rfl | hk
        · exact ⟨c, by simp [invalidateMap, newMapDat], hc⟩
        · obtain ⟨l, e1, e2⟩ := inv.host k hk
          have : k ≠ w.next := fun h0 => hnew (h0 ▸ hk)
          exact ⟨l, by simpa [invalidateMap, newMapDat, this] using e1, e2⟩
      · intro k hk
        rcases List.mem_cons.mp (hids.mem_iff.mp hk) with rfl | hk
        · exact ⟨c, by simp [invalidateMap, newMapDat], hc⟩
        · obtain ⟨l, e1, e2⟩ := inv.device k hk
          have : k ≠ w.next := fun h0 => hnew (h0 ▸ hk)
          exact ⟨l, by simpa [invalidateMap, newMapDat, this] using e1, e2⟩
      · obtain ⟨d, hd⟩ := inv.pos
        show ∃ d, omGet (omPut w.reals s ⟨w.next, n⟩) w.posSym = some d
        rw [omGet_put]
        split
        · exact ⟨_, rfl⟩
        · exact ⟨d, hd⟩
      · intro h0; cases h0
      · intro h0; cases h0
    · cases h

theorem inv_addInt {w w' : MapWorld} (inv : PtrMapInv w) {s : Int} {n : Nat} {c : List Int}
    (h : addMapInt s n c w = some w') : PtrMapInv w' := by
  unfold addMapInt at h
  cases hg : omGet w.ints s with
  | some d =>
    rw [hg] at h
    dsimp only at h
    split at h
    · rw [Option.some.injEq] at h; exact h ▸ inv
    · cases h
  | none =>
    rw [hg] at h
    dsimp only at h
    split at h
    · rename_i hc
      rw [Option.some.injEq] at h
      subst h
      have hperm : (omPut w.ints s ⟨w.next, n⟩).Perm ((s, ⟨w.next, n⟩) :: w.ints) := omPut_perm _ _ _ hg
      have hids : w.reals.map (·.2.id) ++ (omPut w.ints s ⟨w.next, n⟩).map (·.2.id) |>.Perm (w.next :: datIds w) := by
        have h1 := (hperm.map (·.2.id)).append_left (w.reals.map (·.2.id))
        refine h1.trans ?_
        rw [List.map_cons]
        exact List.perm_middle
      have hnew : w.next ∉ datIds w := fun h0 => absurd (inv.lt _ h0) (by omega)
      refine ⟨inv.okR, omPut_ok inv.okI _ _, ?_, ?_, ?_, ?_, inv.pos, ?_, ?_⟩
      · exact hids.nodup_iff.mpr (List.nodup_cons.mpr ⟨hnew, inv.nodup⟩)
      · intro k hk
        rcases List.mem_cons.mp (hids.mem_iff.mp hk) with rfl | hk
        · exact Nat.lt_succ_self _
        · exact Nat.lt_succ_of_lt (inv.lt k hk)
      · intro k hk
        rcases List.mem_cons.mp (hids.mem_iff.mp hk) with rfl | hk
        · exact ⟨c, by simp [invalidateMap, newMapDat], hc⟩
        · obtain ⟨l, e1, e2⟩ := inv.host k hk
          have : k ≠ w.next := fun h0 => hnew (h0 ▸ hk)
          exact ⟨l, by simpa [invalidateMap, newMapDat, this] using e1, e2⟩
      · intro k hk
        rcases List.mem_cons.mp (hids.mem_iff.mp hk) with rfl | hk
        · exact ⟨c, by simp [invalidateMap, newMapDat], hc⟩
        · obtain ⟨l, e1, e2⟩ := inv.device k hk
          have : k ≠ w.next := fun h0 => hnew (h0 ▸ hk)
          exact ⟨l, by simpa [invalidateMap, newMapDat, this] using e1, e2⟩
      · intro h0; cases h0
      · intro h0; cases h0
    · cases h

theorem inv_removeReal {w w' : MapWorld} (inv : PtrMapInv w) {s : Int} (h : removeMapReal s w = some w') :
    PtrMapInv w' := by
  unfold removeMapReal at h
  rw [Option.bind_eq_some_iff] at h
  obtain ⟨d, hd, h⟩ := h
  split at h
  · cases h
  · rename_i hpos
    rw [Option.some.injEq] at h
    subst h
    have hsub : ((omErase w.reals s).map (·.2.id) ++ w.ints.map (·.2.id)).Sublist (datIds w) :=
      List.Sublist.append (List.Sublist.map _ List.filter_sublist) (List.Sublist.refl _)
    have hnd := inv.nodup
    unfold datIds at hnd
    rw [List.nodup_append] at hnd
    have hmem : d.id ∈ w.reals.map (·.2.id) := List.mem_map.mpr ⟨_, omGet_some_mem hd, rfl⟩
    have hne : ∀ k ∈ (omErase w.reals s).map (·.2.id) ++ w.ints.map (·.2.id), k ≠ d.id := by
      rintro k hk rfl
      rcases List.mem_append.mp hk with hk | hk
      · exact erase_ids hd hnd.1 hk
      · exact hnd.2.2 _ hmem _ hk rfl
    refine ⟨omErase_ok inv.okR s, inv.okI, hsub.nodup inv.nodup, fun k hk => inv.lt k (hsub.subset hk), ?_, ?_, ?_,
      ?_, ?_⟩
    · intro k hk
      obtain ⟨l, e1, e2⟩ := inv.host k (hsub.subset hk)
      exact ⟨l, by simpa [freeDat, invalidateMap, hne k hk] using e1, e2⟩
    · intro k hk
      obtain ⟨l, e1, e2⟩ := inv.device k (hsub.subset hk)
      exact ⟨l, by simpa [freeDat, invalidateMap, hne k hk] using e1, e2⟩
    · obtain ⟨d', hd'⟩ := inv.pos
      exact ⟨d', by show omGet (omErase w.reals s) w.posSym = some d'; rw [omGet_erase_ne _ (fun h => hpos h.symm)]; exact hd'⟩
    · intro h0; cases h0
    · intro h0; cases h0

theorem inv_removeInt {w w' : MapWorld} (inv : PtrMapInv w) {s : Int} (h : removeMapInt s w = some w') :
    PtrMapInv w' := by
  unfold removeMapInt at h
  rw [Option.bind_eq_some_iff] at h
  obtain ⟨d, hd, h⟩ := h
  split at h
  · cases h
  · rw [Option.some.injEq] at h
    subst h
    have hsub : (w.reals.map (·.2.id) ++ (omErase w.ints s).map (·.2.id)).Sublist (datIds w) :=
      List.Sublist.append (List.Sublist.refl _) (List.Sublist.map _ List.filter_sublist)
    have hnd := inv.nodup
    unfold datIds at hnd
    rw [List.nodup_append] at hnd
    have hmem : d.id ∈ w.ints.map (·.2.id) := List.mem_map.mpr ⟨_, omGet_some_mem hd, rfl⟩
    have hne : ∀ k ∈ w.reals.map (·.2.id) ++ (omErase w.ints s).map (·.2.id), k ≠ d.id := by
      rintro k hk rfl
      rcases List.mem_append.mp hk with hk | hk
      · exact hnd.2.2 _ hk _ hmem rfl
      · exact erase_ids hd hnd.2.1 hk
    refine ⟨inv.okR, omErase_ok inv.okI s, hsub.nodup inv.nodup, fun k hk => inv.lt k (hsub.subset hk), ?_, ?_,
      inv.pos, ?_, ?_⟩
    · intro k hk
      obtain ⟨l, e1, e2⟩ := inv.host k (hsub.subset hk)
      exact ⟨l, by simpa [freeDat, invalidateMap, hne k hk] using e1, e2⟩
    · intro k hk
      obtain ⟨l, e1, e2⟩ := inv.device k (hsub.subset hk)
      exact ⟨l, by simpa [freeDat, invalidateMap, hne k hk] using e1, e2⟩
    · intro h0; cases h0
    · intro h0; cases h0

/-- All operations keep the invariant. -/
theorem inv_run {o : MapOp} {w w' : MapWorld} (inv : PtrMapInv w) (h : o.run w = some w') : PtrMapInv w' := by
  cases o with
  | addReal s n c => exact inv_addReal inv h
  | addInt s n c => exact inv_addInt inv h
  | removeReal s => exact inv_removeReal inv h
  | removeInt s => exact inv_removeInt inv h
  | getConst env =>
    obtain ⟨w1, h1, inv1, -⟩ := createConst_spec env inv
    change createConst env w = some w' at h
    rw [h1, Option.some.injEq] at h
    exact h ▸ inv1
  | getWrite env =>
    obtain ⟨w1, h1, inv1, -⟩ := createMap_spec env inv
    change createMap env w = some w' at h
    rw [h1, Option.some.injEq] at h
    exact h ▸ inv1
  | setCounts env a b =>
    change (if w.ncell ≤ a.length ∧ w.ncell ≤ b.length then setNpartCells env a b w else none) = some w' at h
    split at h
    · rename_i hl
      obtain ⟨w1, h1, inv1, -⟩ := setNpartCells_spec env inv a b hl.1 hl.2
      rw [h1, Option.some.injEq] at h
      exact h ▸ inv1
    · cases h

theorem inv_runItems (ops : List MapOp) {w w' : MapWorld} (inv : PtrMapInv w)
    (h : runItems MapOp.run ops w = some w') : PtrMapInv w' := by
  induction ops generalizing w with
  | nil =>
    simp only [runItems] at h
    rw [Option.some.injEq] at h
    exact h ▸ inv
  | cons o ops ih =>
    simp only [runItems] at h
    rw [Option.bind_eq_some_iff] at h
    obtain ⟨w1, h1, h2⟩ := h
    exact ih (inv_run inv h1) h2

/-- All histories give the invariant. -/
theorem inv_history {fresh : Fresh Nat} {ncell : Nat} {posSym : Int} {ndim : Nat} {fixedSyms : List Int}
    {ops : List MapOp} {w : MapWorld} (h : runMapOps fresh ncell posSym ndim fixedSyms ops = some w) :
    PtrMapInv w := by
  unfold runMapOps at h
  rw [Option.bind_eq_some_iff] at h
  obtain ⟨w1, h1, h2⟩ := h
  refine inv_runItems ops ?_ h2
  unfold addMapReal at h1
  simp only [MapWorld.init, omGet, List.find?_nil, Option.map_none, List.length_replicate, if_true] at h1
  rw [Option.some.injEq] at h1
  subst h1
  refine ⟨?_, ?_, ?_, ?_, ?_, ?_, ?_, ?_, ?_⟩
  · simp [OMapOk, invalidateMap, newMapDat, omPut]
  · simp [OMapOk, invalidateMap, newMapDat]
  · simp [datIds, invalidateMap, newMapDat, omPut]
  · simp [datIds, invalidateMap, newMapDat, omPut]
  · simp [datIds, invalidateMap, newMapDat, omPut]
  · simp [datIds, invalidateMap, newMapDat, omPut]
  · exact ⟨⟨0, ndim⟩, by simp [invalidateMap, newMapDat, omPut, omGet]⟩
  · intro h0; cases h0
  · intro h0; cases h0

end NP
