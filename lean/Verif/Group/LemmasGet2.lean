import Verif.Group.LemmasGet
import Verif.Sub.LemmasBuilt

/-! # Extracting particles: assembly -/

set_option autoImplicit false

namespace NP

open Spec

theorem groupProps_syms (g : Group) : (groupProps g).map (·.1) = g.dats.map (·.sym) := by
  unfold groupProps
  rw [List.map_map]; rfl

theorem mem_groupProps {g : Group} {s n : Nat} :
    (s, n) ∈ groupProps g ↔ ∃ d ∈ g.dats, d.sym = s ∧ d.ncomp = n := by
  unfold groupProps
  simp [List.mem_map]

theorem gathered_value {ps : PartSet} {dats : List Dat} {n dx i j : Nat} {d : Dat} {p : PProp}
    {buf : List Int} (hn : ps.npart = n) (hp : ps.prop? d.sym = some p) (hi : i < n)
    (hj : j < d.ncomp)
    (hv : ∀ x, x < n * d.ncomp → p.vals[x]? = buf[before (dats.map (·.ncomp)) dx * n + x]?) :
    ps.at d.sym i j = buf[(before (dats.map (·.ncomp)) dx + j) * n + i]? := by
  rw [at_eq hp, hn, hv _ (colMajor_lt hi hj), Nat.add_mul, Nat.add_assoc]

/-- The overload with device pointers. -/
theorem getParticlesDevice_spec (e : Env) (isReal : Nat → Bool) {spec : List (Nat × Nat)}
    {g : Group} (hg : Consistent g) (hspec : spec.Perm (groupProps g)) {sel : List (Nat × Nat)}
    (hsel : InGroup g sel) {cells layers : List Int}
    (hc : ∀ (i c k : Nat), sel[i]? = some (c, k) →
      cells[i]? = some (c : Int) ∧ layers[i]? = some (k : Int)) :
    ∃ ps, getParticlesDevice e isReal spec g sel.length cells layers = some ps ∧
      HoldsParticles g sel ps := by
  have hnd : (spec.map (·.1)).Nodup := by
    rw [(hspec.map _).nodup_iff, groupProps_syms]; exact hg.nodup
  unfold getParticlesDevice
  by_cases hpos : sel.length > 0
  · rw [if_pos hpos]
    dsimp only
    set reals := g.dats.filter (fun d => isReal d.sym) with hreals
    set ints := g.dats.filter (fun d => !isReal d.sym) with hints
    have hr : ∀ d ∈ reals, d ∈ g.dats ∧ isReal d.sym = true := fun d hd => by
      simpa using List.mem_filter.1 hd
    have hi : ∀ d ∈ ints, d ∈ g.dats ∧ isReal d.sym = false := fun d hd => by
      simpa using List.mem_filter.1 hd
    have hmem : ∀ d ∈ g.dats, ∀ (j : Nat), j < d.ncomp → ∀ (i c k : Nat),
        sel[i]? = some (c, k) → (g.mem ⟨d.sym, c, j, k⟩).isSome = true := by
      intro d hd j hj i c k hs
      obtain ⟨h1, h2⟩ := hsel _ (List.mem_of_getElem? hs)
      exact hg.datsOk.isSome (sj := (d.sym, j)) (mem_flatComps.2 ⟨d, hd, rfl, hj⟩)
        (get_getD hg.len h1) h2
    obtain ⟨bufR, a1, a2, a3⟩ := gatherDats_spec (e.sched 0) (e.freshI 0) (dats := reals)
      (cells := cells) (layers := layers) (m := g.mem) (sel := sel) rfl hc
      (fun d hd => hmem d (hr d hd).1)
    obtain ⟨bufI, b1, b2, b3⟩ := gatherDats_spec (e.sched 1) (e.freshI 1) (dats := ints)
      (cells := cells) (layers := layers) (m := g.mem) (sel := sel) rfl hc
      (fun d hd => hmem d (hi d hd).1)
    have hnew := newPartSet_shape (n := sel.length) hnd
    have hin : ∀ d ∈ g.dats, (d.sym, d.ncomp) ∈ spec := fun d hd =>
      hspec.mem_iff.2 (mem_groupProps.2 ⟨d, hd, rfl, rfl⟩)
    obtain ⟨ps1, c1, c2, c3, c4, c5, c6⟩ := copyOut_spec (dats := reals)
      (hg.nodup.sublist (List.filter_sublist.map _)) a2 hnew rfl
      (fun d hd => by rw [newPartSet_setProps]; exact hin d (hr d hd).1)
    obtain ⟨ps2, d1, d2, d3, d4, d5, d6⟩ := copyOut_spec (dats := ints)
      (hg.nodup.sublist (List.filter_sublist.map _)) b2 c2 c3
      (fun d hd => by rw [c4, newPartSet_setProps]; exact hin d (hi d hd).1)
    refine ⟨ps2, ?_, d3, d2, ?_, ?_⟩
    · simp only [a1, b1, Option.bind_some, c1, d1]
    · rw [d4, c4, newPartSet_setProps]; exact hspec
    · intro s n hs j hj i c k hk
      obtain ⟨d, hd, rfl, rfl⟩ := mem_groupProps.1 hs
      have hilt : i < sel.length := (List.getElem?_eq_some_iff.1 hk).1
      obtain ⟨v, hv⟩ := Option.isSome_iff_exists.1 (hmem d hd j hj i c k hk)
      refine ⟨v, ?_, hv⟩
      by_cases hR : isReal d.sym = true
      · obtain ⟨dx, hdx, e1⟩ := List.getElem_of_mem (List.mem_filter.2 ⟨hd, hR⟩ : d ∈ reals)
        have hget : reals[dx]? = some d := by rw [List.getElem?_eq_getElem hdx, e1]
        obtain ⟨p, p1, p2⟩ := c5 dx d hget
        have hnot : d.sym ∉ ints.map (·.sym) := by
          intro h
          obtain ⟨d', h1, h2⟩ := List.mem_map.1 h
          have := (hi d' h1).2
          rw [h2, hR] at this
          cases this
        have hp := (d6 _ hnot).trans p1
        rw [gathered_value d3 hp hilt hj p2, a3 dx d j i c k hget hj hk, hv]
      · have hI : (!isReal d.sym) = true := by simpa using hR
        obtain ⟨dx, hdx, e1⟩ := List.getElem_of_mem (List.mem_filter.2 ⟨hd, hI⟩ : d ∈ ints)
        have hget : ints[dx]? = some d := by rw [List.getElem?_eq_getElem hdx, e1]
        obtain ⟨p, p1, p2⟩ := d5 dx d hget
        rw [gathered_value d3 p1 hilt hj p2, b3 dx d j i c k hget hj hk, hv]
  · rw [if_neg hpos]
    have h0 : sel = [] := List.length_eq_zero_iff.1 (by omega)
    subst h0
    refine ⟨_, rfl, rfl, newPartSet_shape hnd, ?_, ?_⟩
    · rw [newPartSet_setProps]; exact hspec
    · intro s n _ j _ i c k hk
      simp at hk

theorem indicesOk_iff {ncell : Nat} {npart : List Nat} {cells layers : List Int}
    (hl : cells.length = layers.length) :
    indicesOk ncell npart cells layers = true ↔
      ∀ (i : Nat), i < cells.length → ∃ c k : Nat, cells[i]? = some (c : Int) ∧
        layers[i]? = some (k : Int) ∧ c < ncell ∧ k < npart.getD c 0 := by
  unfold indicesOk
  rw [List.all_eq_true]
  simp only [Bool.and_eq_true, decide_eq_true_eq]
  constructor
  · intro h i hi
    have hi' : i < layers.length := by omega
    obtain ⟨⟨h1, h2⟩, h3, h4⟩ := h (cells[i], layers[i])
      (List.mem_of_getElem? (i := i) (by
        rw [List.getElem?_eq_getElem (by simp; omega)]; simp))
    dsimp only at h1 h2 h3 h4
    refine ⟨cells[i].toNat, layers[i].toNat, ?_, ?_, by omega, by omega⟩
    · rw [List.getElem?_eq_getElem hi]; congr 1; omega
    · rw [List.getElem?_eq_getElem hi']; congr 1; omega
  · rintro h ⟨x, y⟩ hp
    obtain ⟨i, hi, e⟩ := List.getElem_of_mem hp
    rw [List.length_zip] at hi
    obtain ⟨c, k, h1, h2, h3, h4⟩ := h i (by omega)
    simp only [List.getElem_zip, Prod.mk.injEq] at e
    rw [List.getElem?_eq_getElem (by omega), e.1, Option.some.injEq] at h1
    rw [List.getElem?_eq_getElem (by omega), e.2, Option.some.injEq] at h2
    subst h1 h2
    dsimp only
    rw [Int.toNat_natCast]
    omega

theorem lists_unique {s : Selection} {L L' : List (List Nat)} (h : Lists s L) (h' : Lists s L') :
    L = L' := by
  have hl : L.map List.length = L'.map List.length := h.hostCounts.symm.trans h'.hostCounts
  have hlen : L.length = L'.length := by simpa using congrArg List.length hl
  apply List.ext_getElem hlen
  intro c hc hc'
  have hrow : L[c].length = L'[c].length := by
    have := congrArg (fun l => l[c]?) hl
    simpa [hc, hc'] using this
  apply List.ext_getElem hrow
  intro k hk hk'
  have h1 := h.layer c _ k (List.getElem?_eq_getElem hc) hk
  have h2 := h'.layer c _ k (List.getElem?_eq_getElem hc') hk'
  rw [h1, List.getElem?_eq_getElem hk, List.getElem?_eq_getElem hk', Option.some.injEq] at h2
  exact h2

theorem parentLists_unique {npart : List Nat} {par : Parent} {L L' : List (List Nat)}
    (h : ParentLists npart par L) (h' : ParentLists npart par L') : L = L' := by
  cases par with
  | whole => exact h.trans h'.symm
  | sub s => exact lists_unique h h'

end NP
