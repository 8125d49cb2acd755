import Verif.Group.LemmasRemove
import Verif.Group.LemmasSparse

/-! Growing a group: rows for new particles, and the stores of their values. -/

set_option autoImplicit false

namespace NP

open Spec

theorem Spec.SameShape.of_sameSyms {g g' : Group} (h : SameSyms g.dats g'.dats)
    (h1 : g'.ncell = g.ncell) (h2 : g'.posSym = g.posSym) (h3 : g'.rankSym = g.rankSym)
    (h4 : g'.cellSym = g.cellSym) (h5 : g'.hint = g.hint) : SameShape g g' :=
  ⟨h1, flatComps_congr h, h2, h3, h4, h5⟩

theorem count_eq {g : Group} {c n : Nat} (h : g.hNpart[c]? = some n) : count g c = n := by
  simp [count, h]

theorem getD_eq {l : List Nat} {c n : Nat} (h : l[c]? = some n) : l.getD c 0 = n := by
  simp [h]

theorem get_getD {l : List Nat} {c n : Nat} (h : l.length = n) (hc : c < n) :
    l[c]? = some (l.getD c 0) := by
  have : c < l.length := by omega
  simp [this]

/-- Rows for the counts `N` are made available, particle data is kept. -/
theorem grow_spec {e : Env} {g : Group} (hg : Consistent g) {N : List Nat}
    (hN : N.length = g.ncell)
    (hge : ∀ (c n n' : Nat), g.hNpart[c]? = some n → N[c]? = some n' → n ≤ n') :
    ∃ (es : List Nat) (m2 : Mem) (dats2 : List Dat),
      syncCounts { g with hNpart := N } = some { g with
        hNpart := N, dNpart := N, npartEs := es, npartLocal := N.sum } ∧
      reallocAllDats e { g with hNpart := N, dNpart := N, npartEs := es, npartLocal := N.sum } =
        some { g with hNpart := N, dNpart := N, npartEs := es, npartLocal := N.sum, mem := m2,
                      dats := dats2 } ∧
      es.length = g.ncell ∧ (∀ c, c < g.ncell → es[c]? = some ((N.take c).sum)) ∧
      SameSyms g.dats dats2 ∧
      (∀ d ∈ dats2, DatMem g.ncell m2 d ∧ d.hNpart = g.hNpart ∧ d.dNpart = g.hNpart ∧
        d.nrow = N) ∧
      (∀ sj ∈ flatComps g.dats, ∀ (c k n : Nat), g.hNpart[c]? = some n → k < n →
        m2 ⟨sj.1, c, sj.2, k⟩ = g.mem ⟨sj.1, c, sj.2, k⟩) := by
  obtain ⟨es, h1, h2, h3⟩ := syncCounts_spec (g := { g with hNpart := N }) hN
    (by simp only [hg.device]; exact hg.len) hg.es_len
  simp only at h1 h2 h3
  obtain ⟨m2, dats2, k1, k2, k3, k4, k5⟩ := mapDats_realloc (e := e) (counts := N) (m := g.mem)
    (dats := g.dats) (ncell := g.ncell) (fun d hd => (hg.dats d hd).mem) hg.nodup hN
  refine ⟨es, m2, dats2, h1, ?_, h2, h3, k2.imp (fun d d' h => ⟨h.sym, h.ncomp⟩), ?_, ?_⟩
  · unfold reallocAllDats
    simp only
    rw [k1]; rfl
  · intro d' hd'
    obtain ⟨d, hd, hr⟩ := forall₂_mem_right k2 hd'
    have := hg.dats d hd
    exact ⟨k3 d' hd', by rw [hr.host, this.host], by rw [hr.device, this.device], hr.nrow⟩
  · intro sj hsj c k n hn hk
    obtain ⟨d, hd, hd1, hd2⟩ := mem_flatComps.1 hsj
    have hdm := hg.dats d hd
    have hc : c < g.ncell := by
      have := (List.getElem?_eq_some_iff.1 hn).1
      rw [hg.len] at this; exact this
    obtain ⟨r, hr⟩ := exists_at hdm.mem.nrow_len hc
    obtain ⟨n', hn'⟩ := exists_at hN hc
    have h5 := hdm.rows c n r hn hr
    have h6 := hge c n n' hn hn'
    exact k5 d hd _ r n' hd1.symm hd2 hr (by simp only; omega) hn' (by simp only; omega)

/-- After the stores, all counts of the dats are set. -/
theorem finish_spec {g : Group} {N es : List Nat} {m2 m3 : Mem} {dats2 : List Dat}
    (hg : Consistent g) (hN : N.length = g.ncell) (hes : es.length = g.ncell)
    (hes' : ∀ c, c < g.ncell → es[c]? = some ((N.take c).sum)) (hs : SameSyms g.dats dats2)
    (hd : ∀ d ∈ dats2, DatMem g.ncell m2 d ∧ d.hNpart = g.hNpart ∧ d.dNpart = g.hNpart ∧
        d.nrow = N)
    (hm : ∀ k, (m2 k).isSome = true → (m3 k).isSome = true) :
    ∃ dats3, updDats (setNpartHostDevice g.ncell N N) { g with
        hNpart := N, dNpart := N, npartEs := es, npartLocal := N.sum, mem := m3, dats := dats2 } =
      some { g with hNpart := N, dNpart := N, npartEs := es, npartLocal := N.sum, mem := m3,
                    dats := dats3 } ∧ SameSyms g.dats dats3 ∧
      ∀ v, Consistent { g with hNpart := N, dNpart := N, npartEs := es, npartLocal := N.sum,
                               mem := m3, dats := dats3, version := v } := by
  obtain ⟨dats3, h1, h2⟩ := updDats_npart (g := { g with
        hNpart := N, dNpart := N, npartEs := es, npartLocal := N.sum, mem := m3, dats := dats2 })
    (N := N) hN (fun d hdm => by rw [(hd d hdm).2.1]; exact hg.len)
    (fun d hdm => by rw [(hd d hdm).2.2.1]; exact hg.len)
  simp only at h1 h2
  have hs3 : SameSyms g.dats dats3 := SameSyms.trans hs
    (h2.imp (fun d d' h => by rw [h]; exact ⟨rfl, rfl⟩))
  have hmem : ∀ d' ∈ dats3, DatMem g.ncell m3 d' ∧ d'.hNpart = N ∧ d'.dNpart = N ∧ d'.nrow = N := by
    intro d' hd'
    obtain ⟨d, hdm, rfl⟩ := forall₂_mem_right h2 hd'
    obtain ⟨q1, q2, q3, q4⟩ := hd d hdm
    exact ⟨⟨q1.nrow_len, q1.alloc_len, q1.le, fun c a j k h1 h2 h3 => hm _ (q1.alloc c a j k h1 h2 h3)⟩,
      rfl, rfl, q4⟩
  refine ⟨dats3, h1, hs3, fun v => ?_⟩
  refine consistent_of_datsOk (N := N) (es := es) ⟨hN, ?_, fun d hd => (hmem d hd).1,
    fun d hd => (hmem d hd).2.1, fun d hd => (hmem d hd).2.2.1, ?_⟩ (fun _ d hd => (hmem d hd).2.2.2)
    rfl rfl rfl hes hes' rfl (mem_syms_congr hs3 hg.pos) (mem_syms_congr hs3 hg.rank)
    (cell_congr hs3 hg.cell)
  · simp only; rw [syms_congr hs3]; exact hg.nodup
  · intro d hd c n r hn hr
    rw [(hmem d hd).2.2.2, hn] at hr
    simp only [Option.some.injEq] at hr
    omega

/-- Rows `n, n + 1, ...` in the order of the selected indices. -/
theorem map_range_cnt {β : Type} (p : Nat → Bool) (F : Nat → β) (h : Nat → β) (N : Nat)
    (hF : ∀ i, i < N → p i = true → F (cnt p i) = h i) :
    (List.range (cnt p N)).map F = ((List.range N).filter p).map h := by
  induction N with
  | zero => rfl
  | succ N ih =>
    rw [cnt_succ, List.range_succ (n := N), List.filter_append, List.map_append,
      ← ih (fun i hi => hF i (by omega))]
    by_cases hp : p N
    · rw [if_pos hp, List.range_succ, List.map_append, List.filter_cons_of_pos hp]
      simp [hF N (by omega) hp]
    · rw [if_neg hp, List.filter_cons_of_neg hp]; simp

theorem map_range_perm {ι β : Type} {l : List ι} {K : Nat} {f : ι → Nat} {F : Nat → β}
    {h : ι → β} (hnd : l.Nodup) (hinj : ∀ i ∈ l, ∀ j ∈ l, f i = f j → i = j)
    (hf : ∀ i ∈ l, f i < K) (hsurj : ∀ r, r < K → ∃ i ∈ l, f i = r)
    (hF : ∀ i ∈ l, F (f i) = h i) : ((List.range K).map F).Perm (l.map h) := by
  have hp : (l.map f).Perm (List.range K) := by
    rw [List.perm_ext_iff_of_nodup (List.Nodup.map_on hinj hnd) List.nodup_range]
    intro r
    rw [List.mem_map, List.mem_range]
    exact ⟨fun ⟨i, hi, h⟩ => h ▸ hf i hi, fun h => hsurj r h⟩
  have h2 := hp.symm.map F
  rw [List.map_map] at h2
  refine h2.trans ?_
  rw [List.map_congr_left (f := F ∘ f) (g := h) (fun i hi => hF i hi)]

theorem range_add_map {β : Type} (n K : Nat) (F : Nat → β) :
    (List.range (n + K)).map F = (List.range n).map F ++ (List.range K).map fun r => F (n + r) := by
  rw [List.range_add, List.map_append, List.map_map]; rfl

/-- Contents after particles were appended. -/
theorem contents_append {g g' : Group} (hs : flatComps g'.dats = flatComps g.dats) {c n K : Nat}
    (hn : g.hNpart[c]? = some n) (hn' : g'.hNpart[c]? = some (n + K))
    (hm : ∀ sj ∈ flatComps g.dats, ∀ k, k < n →
      g'.mem ⟨sj.1, c, sj.2, k⟩ = g.mem ⟨sj.1, c, sj.2, k⟩) :
    contents g' c = contents g c ++ (List.range K).map fun r => particle g' c (n + r) := by
  unfold contents
  rw [count_eq hn, count_eq hn', range_add_map]
  congr 1
  apply List.map_congr_left
  intro k hk
  rw [List.mem_range] at hk
  unfold particle
  rw [hs]
  apply List.map_congr_left
  intro sj hsj
  exact hm sj hsj k hk

end NP
