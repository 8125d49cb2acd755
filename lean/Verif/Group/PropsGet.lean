import Verif.Group.LemmasSpec
import Verif.Group.Props
import Verif.Group.PropsHistory

/-!
# Property C74: reading particles into particle sets, particle sets, removing sub groups
-/

set_option autoImplicit false

namespace NP

open Spec

/-! ## `ParticleGroup::get_particles` -/

/-- **C74** `get_particles` of particles that exist returns a particle set with the properties of
the group, in which particle `i` has all values of the `i`-th requested particle. A particle may
be requested several times. -/
theorem C74_get_particles (e : Env) (isReal : Nat → Bool) {spec : List (Nat × Nat)} {g : Group}
    (hg : Consistent g) (hspec : spec.Perm (groupProps g)) {sel : List (Nat × Nat)}
    (hsel : InGroup g sel) :
    ∃ ps, getParticles e isReal spec g (cellsOf sel) (layersOf sel) = some ps ∧
      HoldsParticles g sel ps := by
  have hget : ∀ (i c k : Nat), sel[i]? = some (c, k) →
      (cellsOf sel)[i]? = some (c : Int) ∧ (layersOf sel)[i]? = some (k : Int) := by
    intro i c k h
    simp [cellsOf, layersOf, h]
  obtain ⟨ps, h1, h2⟩ := getParticlesDevice_spec e isReal hg hspec hsel hget
  refine ⟨ps, ?_, h2⟩
  unfold getParticles
  rw [if_pos (by simp), if_pos]
  · rw [show (cellsOf sel).length = sel.length by simp]; exact h1
  · rw [indicesOk_iff (by simp)]
    intro i hi
    rw [List.length_map] at hi
    obtain ⟨h3, h4⟩ := hsel sel[i] (List.getElem_mem hi)
    obtain ⟨h5, h6⟩ := hget i sel[i].1 sel[i].2 (List.getElem?_eq_getElem hi)
    exact ⟨_, _, h5, h6, h3, h4⟩

/-- **C74** Anything else is rejected: vectors of different lengths, and cells or layers that name
no particle of the group. -/
theorem C74_get_particles_rejects (e : Env) (isReal : Nat → Bool) (spec : List (Nat × Nat))
    (g : Group) {cells layers : List Int}
    (h : ∀ sel, InGroup g sel → ¬ (cells = cellsOf sel ∧ layers = layersOf sel)) :
    getParticles e isReal spec g cells layers = none := by
  unfold getParticles
  by_cases hl : cells.length = layers.length
  · rw [if_pos hl, if_neg]
    intro hok
    rw [indicesOk_iff hl] at hok
    refine h (((cells.zip layers).map fun p => (p.1.toNat, p.2.toNat))) ?_ ⟨?_, ?_⟩
    · intro p hp
      obtain ⟨q, h1, rfl⟩ := List.mem_map.1 hp
      obtain ⟨i, hi, e⟩ := List.getElem_of_mem h1
      rw [List.length_zip] at hi
      obtain ⟨c, k, h2, h3, h4, h5⟩ := hok i (by omega)
      rw [List.getElem?_eq_getElem (by omega), Option.some.injEq] at h2 h3
      rw [← e]
      simp only [List.getElem_zip, h2, h3, Int.toNat_natCast]
      exact ⟨h4, h5⟩
    · apply List.ext_getElem?
      intro i
      by_cases hi : i < cells.length
      · obtain ⟨c, k, h2, h3, h4, h5⟩ := hok i hi
        simp [cellsOf, List.zip, List.getElem?_zipWith, h2, h3]
      · rw [List.getElem?_eq_none (by omega), List.getElem?_eq_none (by simp; omega)]
    · apply List.ext_getElem?
      intro i
      by_cases hi : i < cells.length
      · obtain ⟨c, k, h2, h3, h4, h5⟩ := hok i hi
        simp [layersOf, List.zip, List.getElem?_zipWith, h2, h3]
      · rw [List.getElem?_eq_none (by omega), List.getElem?_eq_none (by simp; omega)]
  · rw [if_neg hl]

/-- **C74** The specification that `get_particles` uses is right: after any calls on a new group it
lists exactly the properties of the group, and keeping it up to date makes no call fail. -/
theorem C74_spec_current (e : Env) (env : Nat → Env) {ncell pos rank cell hint : Nat}
    {spec : List (Nat × Nat)} (hspec : SpecOk ((rank, 2) :: spec)) (hpos : ∃ n, (pos, n) ∈ spec)
    (hcell : ∃ n, 0 < n ∧ (cell, n) ∈ spec) (calls : List GroupCall) :
    ∃ sg, sgCreate e ncell pos rank cell hint spec = some sg ∧
      createGroup e ncell pos rank cell hint spec = some sg.group ∧
      (sg.calls env 0 calls).map SpecGroup.group = sg.group.calls env 0 calls ∧
      ∀ sg', sg.calls env 0 calls = some sg' → sg'.spec.Perm (groupProps sg'.group) := by
  obtain ⟨g, g1, g2, -⟩ := C18_new_group e (ncell := ncell) (hint := hint) hspec hpos hcell
  obtain ⟨h1, h2⟩ := sgCreate_spec (e := e) (ncell := ncell) (pos := pos) (rank := rank)
    (cell := cell) (hint := hint) (spec := spec)
  rw [g1, Option.map_eq_some_iff] at h1
  obtain ⟨sg, h3, rfl⟩ := h1
  obtain ⟨h4, h5⟩ := specCalls_spec (env := env) (xs := calls) (i := 0) g2.counts (h2 sg h3)
  exact ⟨sg, h3, g1, h4, h5⟩

/-! ## `ParticleSubGroup::get_particles` -/

/-- **C74** `get_particles` of a sub group (made by any nesting of selectors): with `L` the listing
of its particles, requests for the loop layers of the sub group return the particles they name. -/
theorem C74_sub_group (e : Env) (isReal : Nat → Bool) {spec : List (Nat × Nat)} {g : Group}
    (hg : Consistent g) (hspec : spec.Perm (groupProps g)) {par : Parent}
    (hb : Built g.hNpart par) {L : List (List Nat)} (hL : ParentLists g.hNpart par L)
    {cells layers : List Int} {sel : List (Nat × Nat)} (hsel : NamesIn L cells layers sel) :
    ∃ ps, getParticlesSub e isReal spec g par cells layers = some ps ∧
      HoldsParticles g sel ps := by
  obtain ⟨n1, n2, n3⟩ := hsel
  obtain ⟨L', h1, h2⟩ := built_spec hb
  obtain rfl := parentLists_unique hL h1
  have hin : InGroup g sel := by
    rintro ⟨c, k⟩ hp
    obtain ⟨i, hi, e⟩ := List.getElem_of_mem hp
    obtain ⟨-, row, l, h3, -, h5⟩ := n3 i c k (by rw [List.getElem?_eq_getElem hi, e])
    have hc : c < g.hNpart.length := by rw [← h2.1]; exact lt_of_row h3
    have h6 := (h2.2 c row _ h3 (List.getElem?_eq_getElem hc)).2 k (List.mem_of_getElem? h5)
    refine ⟨by rw [← hg.len]; exact hc, ?_⟩
    unfold count
    rw [List.getD_eq_getElem?_getD, List.getElem?_eq_getElem hc]
    exact h6
  cases par with
  | whole =>
    change L = g.hNpart.map List.range at hL
    have hk : ∀ (i c k : Nat), sel[i]? = some (c, k) → cells[i]? = some (c : Int) ∧
        layers[i]? = some (k : Int) := by
      intro i c k h
      obtain ⟨h3, row, l, h4, h5, h6⟩ := n3 i c k h
      refine ⟨h3, ?_⟩
      rw [hL, List.getElem?_map, Option.map_eq_some_iff] at h4
      obtain ⟨n, -, rfl⟩ := h4
      have hl : l < n := by
        have := (List.getElem?_eq_some_iff.1 h6).1
        simpa using this
      rw [List.getElem?_range hl, Option.some.injEq] at h6
      rw [h5, h6]
    have hcs : cells = cellsOf sel := by
      apply List.ext_getElem?
      intro i
      cases h : sel[i]? with
      | none =>
        rw [List.getElem?_eq_none_iff] at h
        rw [List.getElem?_eq_none (by omega), List.getElem?_eq_none (by simpa using h)]
      | some p =>
        rw [(hk i p.1 p.2 h).1]; simp [cellsOf, h]
    have hls : layers = layersOf sel := by
      apply List.ext_getElem?
      intro i
      cases h : sel[i]? with
      | none =>
        rw [List.getElem?_eq_none_iff] at h
        rw [List.getElem?_eq_none (by omega), List.getElem?_eq_none (by simpa using h)]
      | some p =>
        rw [(hk i p.1 p.2 h).2]; simp [layersOf, h]
    rw [hcs, hls]
    exact C74_get_particles e isReal hg hspec hin
  | sub s =>
    change Lists s L at hL
    unfold getParticlesSub
    dsimp only
    rw [if_pos n2.symm]
    by_cases hpos : cells.length > 0
    · rw [if_pos hpos, if_pos]
      · have hla : ∀ i, i < cells.length → ∃ c k l : Nat, sel[i]? = some (c, k) ∧
            cells[i]? = some (c : Int) ∧ layers[i]? = some (l : Int) ∧ s.layerAt c l = some k := by
          intro i hi
          have hs : sel[i]? = some sel[i] := List.getElem?_eq_getElem (by omega)
          obtain ⟨h3, row, l, h4, h5, h6⟩ := n3 i _ _ hs
          exact ⟨_, _, l, hs, h3, h5, by
            rw [hL.layer _ row l h4 (List.getElem?_eq_some_iff.1 h6).1, h6]⟩
        obtain ⟨inner, r1, r2, r3, -⟩ := runItems_fill (n := cells.length)
          (items := (e.sched 2).order (List.range cells.length))
          (step := innerLayerStep s cells layers) (m := (e.freshI 2 cells.length).1)
          ((e.sched 2).perm _) (by rw [(e.freshI 2 _).2])
          (fun i => (((sel[i]?).elim 0 fun p => p.2 : Nat) : Int))
          (by
            intro i hi a _
            obtain ⟨c, k, l, h3, h4, h5, h6⟩ := hla i hi
            unfold innerLayerStep
            simp only [rd, h4, h5, Option.bind_some, index_nat, h6, h3, Option.elim_some])
        rw [r1, Option.bind_some, ← n1]
        refine getParticlesDevice_spec e isReal hg hspec hin ?_
        intro i c k h
        have hi : i < cells.length := by rw [← n1]; exact (List.getElem?_eq_some_iff.1 h).1
        exact ⟨(n3 i c k h).1, by rw [r3 i hi, h]; rfl⟩
      · rw [indicesOk_iff n2.symm]
        intro i hi
        have hs : sel[i]? = some sel[i] := List.getElem?_eq_getElem (by omega)
        obtain ⟨h3, row, l, h4, h5, h6⟩ := n3 i _ _ hs
        refine ⟨_, l, h3, h5, (hin _ (List.mem_of_getElem? hs)).1, ?_⟩
        rw [hL.hostCounts, List.getD_eq_getElem?_getD, List.getElem?_map, h4]
        exact (List.getElem?_eq_some_iff.1 h6).1
    · rw [if_neg hpos]
      have h0 : sel = [] := List.length_eq_zero_iff.1 (by omega)
      subst h0
      have hnd : (spec.map (·.1)).Nodup := by
        rw [(hspec.map _).nodup_iff, groupProps_syms]; exact hg.nodup
      refine ⟨_, rfl, rfl, newPartSet_shape hnd, ?_, ?_⟩
      · rw [newPartSet_setProps]; exact hspec
      · intro s n _ j _ i c k hk
        simp at hk

/-- **C74** Requests that name no loop layer of the sub group are rejected. -/
theorem C74_sub_group_rejects (e : Env) (isReal : Nat → Bool) (spec : List (Nat × Nat)) {g : Group}
    (hg : Consistent g) {par : Parent} (hb : Built g.hNpart par) {L : List (List Nat)}
    (hL : ParentLists g.hNpart par L) {cells layers : List Int}
    (h : ∀ sel, ¬ NamesIn L cells layers sel) :
    getParticlesSub e isReal spec g par cells layers = none := by
  have hlen : L.length = g.ncell := by
    obtain ⟨L', h1, h2⟩ := built_spec hb
    obtain rfl := parentLists_unique hL h1
    rw [h2.1, hg.len]
  have key : cells.length = layers.length →
      (∀ (i : Nat), i < cells.length → ∃ c l : Nat, cells[i]? = some (c : Int) ∧
        layers[i]? = some (l : Int) ∧ c < g.ncell ∧
          l < (L.map List.length).getD c 0) → False := by
    intro hl hok
    apply h ((List.range cells.length).map fun i =>
      (((cells[i]?).getD 0).toNat,
        ((L[((cells[i]?).getD 0).toNat]?).getD [])[((layers[i]?).getD 0).toNat]?.getD 0))
    refine ⟨by simp, hl.symm, ?_⟩
    intro i c k hk
    rw [List.getElem?_map, Option.map_eq_some_iff] at hk
    obtain ⟨i', h1, h2⟩ := hk
    obtain ⟨hi, h1⟩ := List.getElem?_eq_some_iff.1 h1
    rw [List.length_range] at hi
    rw [List.getElem_range] at h1
    subst h1
    obtain ⟨c', l, h3, h4, h5, h6⟩ := hok i hi
    simp only [h3, h4, Option.getD_some, Int.toNat_natCast, Prod.mk.injEq] at h2
    obtain ⟨rfl, h2⟩ := h2
    refine ⟨h3, ?_⟩
    have hc : c' < L.length := by omega
    rw [List.getD_eq_getElem?_getD, List.getElem?_map, List.getElem?_eq_getElem hc] at h6
    simp only [Option.map_some, Option.getD_some] at h6
    rw [List.getElem?_eq_getElem hc, Option.getD_some, List.getElem?_eq_getElem h6,
      Option.getD_some] at h2
    exact ⟨L[c'], l, List.getElem?_eq_getElem hc, h4, by
      rw [List.getElem?_eq_getElem h6, h2]⟩
  cases par with
  | whole =>
    change L = g.hNpart.map List.range at hL
    change getParticles e isReal spec g cells layers = none
    apply C74_get_particles_rejects
    rintro sel hsel ⟨rfl, rfl⟩
    apply key (by simp)
    intro i hi
    rw [List.length_map] at hi
    obtain ⟨h1, h2⟩ := hsel sel[i] (List.getElem_mem hi)
    refine ⟨sel[i].1, sel[i].2, by simp [hi], by simp [hi], h1, ?_⟩
    rw [hL, List.map_map]
    have : (g.hNpart.map (List.length ∘ List.range)) = g.hNpart := by
      rw [show (List.length ∘ List.range) = id from funext fun n => List.length_range]
      exact List.map_id _
    rw [this]
    exact h2
  | sub s =>
    change Lists s L at hL
    unfold getParticlesSub
    dsimp only
    by_cases hl : cells.length = layers.length
    · rw [if_pos hl, if_pos, if_neg]
      · intro hok
        rw [indicesOk_iff hl, hL.hostCounts] at hok
        exact key hl hok
      · by_contra h0
        exact key hl (fun i hi => by omega)
    · rw [if_neg hl]

end NP
