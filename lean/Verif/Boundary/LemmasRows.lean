import Verif.Boundary.Spec
import Verif.Sub.LemmasBuilt
import Verif.Group.LemmasRemoveGroup

/-! Loops whose kernel updates the properties of its own particle. -/

set_option autoImplicit false

namespace NP

open Spec

variable {ρ : Type _}

theorem rowAt_set {rows : List (List ρ)} {c l : Nat} {cell : List ρ} (hc : rows[c]? = some cell)
    (hl : l < cell.length) (r : ρ) (c' l' : Nat) :
    rowAt (rows.set c (cell.set l r)) c' l' = if c' = c ∧ l' = l then some r else rowAt rows c' l' := by
  unfold rowAt
  have hcl : c < rows.length := (List.getElem?_eq_some_iff.1 hc).1
  by_cases h1 : c' = c
  · subst h1
    rw [List.getElem?_set_self hcl, hc]
    show (cell.set l r)[l']? = _
    by_cases h2 : l' = l
    · subst h2; simp [hl]
    · rw [List.getElem?_set_ne (by omega), if_neg (by simp [h2])]; rfl
  · rw [List.getElem?_set_ne (by omega), if_neg (by simp [h1])]

theorem rowAt_some {rows : List (List ρ)} {c l : Nat} {r : ρ} (h : rowAt rows c l = some r) :
    ∃ cell, rows[c]? = some cell ∧ cell[l]? = some r := Option.bind_eq_some_iff.1 h

theorem shape_row {npart : List Nat} {rows : List (List ρ)} (hs : Shape npart rows) {c n : Nat}
    (h : npart[c]? = some n) : ∃ cell, rows[c]? = some cell ∧ cell.length = n := by
  rw [← hs, List.getElem?_map, Option.map_eq_some_iff] at h
  exact h

theorem shape_set {npart : List Nat} {rows : List (List ρ)} (hs : Shape npart rows) {c : Nat}
    {cell cell' : List ρ} (hc : rows[c]? = some cell) (hl : cell'.length = cell.length) :
    Shape npart (rows.set c cell') := by
  unfold Shape at hs ⊢
  rw [← hs]
  apply List.ext_getElem?
  intro i
  rw [List.getElem?_map, List.getElem?_map]
  by_cases h : i = c
  · subst h
    rw [List.getElem?_set_self (List.getElem?_eq_some_iff.1 hc).1, hc]
    simp [hl]
  · rw [List.getElem?_set_ne (by omega)]

/-- The visits of a loop over a group or sub group. -/
theorem rowVisits_spec {P : LoopParams} {npart : List Nat} {par : Parent} (h : RowLoopOk P npart par) :
    ∃ vis, parentVisits P npart par = some vis ∧ vis.Nodup ∧
      (∀ c k, (c, k) ∈ vis ↔ ∃ n, (par.counts npart)[c]? = some n ∧ k < n) ∧
      (∀ c k, (c, k) ∈ vis → ∃ l, par.layerAt c k = some l ∧ InParent npart par c l) ∧
      (∀ c l, InParent npart par c l → ∃ k, (c, k) ∈ vis ∧ par.layerAt c k = some l) ∧
      (∀ c l, InParent npart par c l → ∃ n, npart[c]? = some n ∧ l < n) ∧
      (∀ c k k' l, (c, k) ∈ vis → (c, k') ∈ vis → par.layerAt c k = some l → par.layerAt c k' = some l →
        k = k') := by
  obtain ⟨L, pl, sl⟩ := built_spec h.built
  have pf := parent_facts pl
  have hlaunch : LaunchOk P (lens L) true (lens L).sum := by
    refine ⟨h.localSize, h.localSizeInt, h.nbin, ?_, ?_⟩
    · intro n hn
      obtain ⟨row, hrow, rfl⟩ := List.mem_map.1 hn
      obtain ⟨c, hc, hce⟩ := List.getElem_of_mem hrow
      have hc' : c < npart.length := by rw [← sl.1]; exact hc
      obtain ⟨h1, h2⟩ := sl.2 c row npart[c] (by rw [List.getElem?_eq_getElem hc, hce])
        (List.getElem?_eq_getElem hc')
      exact Nat.lt_of_le_of_lt (row_length_le h1 h2) (h.counts _ (List.getElem_mem _))
    · intro _ h0 n hn
      have := le_sum_of_mem hn
      omega
  obtain ⟨vis, v1, v2, v3⟩ := C07_each_particle_once hlaunch (cs := none) (ce := none) trivial
  replace v3 : ∀ c k, (c, k) ∈ vis ↔ ∃ row, L[c]? = some row ∧ k < row.length := by
    intro c k
    rw [v3]
    simp only [CellRequested, true_and]
    constructor
    · rintro ⟨n, h1, h2⟩
      rw [lens, List.getElem?_map, Option.map_eq_some_iff] at h1
      obtain ⟨row, h3, rfl⟩ := h1
      exact ⟨row, h3, h2⟩
    · rintro ⟨row, h1, h2⟩
      exact ⟨row.length, lens_get h1, h2⟩
  refine ⟨vis, ?_, v2, ?_, ?_, ?_, ?_, ?_⟩
  · unfold parentVisits
    rw [pf.counts, pf.total]
    exact v1
  · intro c k
    rw [v3, pf.counts]
    constructor
    · rintro ⟨row, h1, h2⟩; exact ⟨row.length, lens_get h1, h2⟩
    · rintro ⟨n, h1, h2⟩
      rw [lens, List.getElem?_map, Option.map_eq_some_iff] at h1
      obtain ⟨row, h3, rfl⟩ := h1
      exact ⟨row, h3, h2⟩
  · intro c k hck
    obtain ⟨row, h3, h2⟩ := (v3 c k).1 hck
    refine ⟨row[k], ?_, (inParent_iff pl c _).2 ⟨row, h3, List.getElem_mem _⟩⟩
    rw [pf.layer c row k h3 h2, List.getElem?_eq_getElem h2]
  · intro c l hl
    obtain ⟨row, h1, h2⟩ := (inParent_iff pl c l).1 hl
    obtain ⟨k, hk, rfl⟩ := List.getElem_of_mem h2
    refine ⟨k, (v3 c k).2 ⟨row, h1, hk⟩, ?_⟩
    rw [pf.layer c row k h1 hk, List.getElem?_eq_getElem hk]
  · intro c l hl
    obtain ⟨row, h1, h2⟩ := (inParent_iff pl c l).1 hl
    have hc' : c < npart.length := by rw [← sl.1]; exact lt_of_row h1
    exact ⟨npart[c], List.getElem?_eq_getElem hc',
      (sl.2 c row npart[c] h1 (List.getElem?_eq_getElem hc')).2 l h2⟩
  · intro c k k' l h1 h2 h3 h4
    obtain ⟨row, e1, e2⟩ := (v3 c k).1 h1
    obtain ⟨row', e3, e4⟩ := (v3 c k').1 h2
    rw [e1] at e3
    obtain rfl := Option.some.inj e3
    rw [pf.layer c row k e1 e2] at h3
    rw [pf.layer c row k' e1 e4] at h4
    have hc' : c < npart.length := by rw [← sl.1]; exact lt_of_row e1
    have hnd := (sl.2 c row npart[c] e1 (List.getElem?_eq_getElem hc')).1
    rw [List.getElem?_eq_getElem e2] at h3
    rw [List.getElem?_eq_getElem e4] at h4
    exact (List.Nodup.getElem_inj_iff hnd).1 (Option.some.inj (h3.trans h4.symm))

/-- Each particle of the group or sub group is updated once by its kernel call, others are kept. -/
theorem rowLoop_spec {P : LoopParams} {npart : List Nat} {par : Parent} (h : RowLoopOk P npart par)
    (order : Sched) {rows : List (List ρ)} (hs : Shape npart rows) {kernel : Nat → Nat → ρ → Option ρ}
    (hk : ∀ c k l r, LoopLayer npart par c l k → rowAt rows c l = some r → ∃ r', kernel c k r = some r') :
    ∃ rows', rowLoop P order npart par kernel rows = some rows' ∧ Shape npart rows' ∧
      (∀ c l k r, LoopLayer npart par c l k → rowAt rows c l = some r →
        ∃ r', rowAt rows' c l = some r' ∧ kernel c k r = some r') ∧
      (∀ c l, ¬ InParent npart par c l → rowAt rows' c l = rowAt rows c l) := by
  obtain ⟨vis, v1, v2, v3, v4, v5, v6, v7⟩ := rowVisits_spec h
  have hperm := order.perm vis
  obtain ⟨rows', b1, b2, b3, b4⟩ := runItems_invariant
    (step := rowStep par kernel) (items := order.order vis) (s := rows)
    (P := fun pre (s : List (List ρ)) => Shape npart s ∧
      (∀ c k l r, (c, k) ∈ pre → par.layerAt c k = some l → rowAt rows c l = some r →
        rowAt s c l = kernel c k r) ∧
      (∀ c l, (¬ ∃ k, (c, k) ∈ pre ∧ par.layerAt c k = some l) → rowAt s c l = rowAt rows c l))
    (by
      rintro pre ⟨c, k⟩ post s he ⟨a1, a2, a3⟩
      have hin : ∀ x ∈ pre ++ (c, k) :: post, x ∈ vis := fun x hx => hperm.mem_iff.1 (by rw [he]; exact hx)
      have hck : (c, k) ∈ vis := hin _ (by simp)
      have hnot : (c, k) ∉ pre := by
        have : (pre ++ (c, k) :: post).Nodup := by rw [← he]; exact hperm.nodup_iff.2 v2
        rw [List.nodup_append] at this
        intro hp
        exact this.2.2 _ hp _ (by simp) rfl
      obtain ⟨l, hl, hlp⟩ := v4 c k hck
      obtain ⟨n, hn, hln⟩ := v6 c l hlp
      have hfree : ¬ ∃ k', (c, k') ∈ pre ∧ par.layerAt c k' = some l := by
        rintro ⟨k', h1, h2⟩
        have := v7 c k k' l hck (hin _ (by simp [h1])) hl h2
        subst this
        exact hnot h1
      obtain ⟨cell, hc, hcl⟩ := shape_row a1 hn
      obtain ⟨cell0, hc0, hcl0⟩ := shape_row hs hn
      have hr0 : rowAt rows c l = some (cell0[l]'(by omega)) := by
        unfold rowAt
        rw [hc0]
        exact List.getElem?_eq_getElem (by omega)
      have hr : rowAt s c l = some (cell0[l]'(by omega)) := by rw [a3 c l hfree, hr0]
      have hr' : cell[l]? = some (cell0[l]'(by omega)) := by
        unfold rowAt at hr
        rw [hc] at hr
        exact hr
      obtain ⟨r', hr''⟩ := hk c k l _ ⟨hl, (v3 c k).1 hck⟩ hr0
      have hlc : l < cell.length := by omega
      refine ⟨s.set c (cell.set l r'), ?_, shape_set a1 hc (by simp), ?_, ?_⟩
      · unfold rowStep
        simp only [rd]
        rw [hl, Option.bind_some, hc, Option.bind_some, hr', Option.bind_some]
        rw [hr'', Option.bind_some, st_eq_some hlc, Option.bind_some,
          st_eq_some (List.getElem?_eq_some_iff.1 hc).1]
      · intro c1 k1 l1 r1 h1 h2 h3
        rw [rowAt_set hc hlc]
        rcases List.mem_append.1 h1 with h1 | h1
        · rw [if_neg]
          · exact a2 c1 k1 l1 r1 h1 h2 h3
          · rintro ⟨e1, e2⟩
            rw [e1] at h1 h2
            rw [e2] at h2
            exact hfree ⟨k1, h1, h2⟩
        · rw [List.mem_singleton, Prod.mk.injEq] at h1
          rw [h1.1, h1.2, hl] at h2
          have h2' := Option.some.inj h2
          rw [if_pos ⟨h1.1, h2'.symm⟩]
          rw [h1.1, ← h2', hr0] at h3
          rw [h1.1, h1.2, ← Option.some.inj h3, hr'']
      · intro c1 l1 h1
        rw [rowAt_set hc hlc, if_neg]
        · apply a3
          rintro ⟨k1, h2, h3⟩
          exact h1 ⟨k1, by simp [h2], h3⟩
        · rintro ⟨e1, e2⟩
          exact h1 ⟨k, by simp [e1], by rw [e1, e2]; exact hl⟩)
    ⟨hs, by simp, by simp⟩
  refine ⟨rows', by unfold rowLoop; rw [v1]; exact b1, b2, ?_, ?_⟩
  · intro c l k r h1 h2
    obtain ⟨r', hr'⟩ := hk c k l r h1 h2
    refine ⟨r', ?_, hr'⟩
    rw [← hr']
    exact b3 c k l r (hperm.mem_iff.2 ((v3 c k).2 h1.2)) h1.1 h2
  · intro c l hnl
    apply b4
    rintro ⟨k, h1, h2⟩
    obtain ⟨l', h3, h4⟩ := v4 c k (hperm.mem_iff.1 h1)
    rw [h2] at h3
    rw [← Option.some.inj h3] at h4
    exact hnl h4

/-- Every particle of the group or sub group is some loop layer of its cell. -/
theorem exists_loopLayer {P : LoopParams} {npart : List Nat} {par : Parent} (h : RowLoopOk P npart par)
    (c l : Nat) : InParent npart par c l ↔ ∃ k, LoopLayer npart par c l k := by
  obtain ⟨vis, v1, v2, v3, v4, v5, v6, v7⟩ := rowVisits_spec h
  constructor
  · intro hl
    obtain ⟨k, h1, h2⟩ := v5 c l hl
    exact ⟨k, h2, (v3 c k).1 h1⟩
  · rintro ⟨k, h1, h2⟩
    obtain ⟨l', h3, h4⟩ := v4 c k ((v3 c k).2 h2)
    rw [h1] at h3
    rw [Option.some.inj h3]
    exact h4

end NP
