import Verif.Group.LemmasCounts

/-!
# Lemmas: adding and removing properties, clearing and creating groups
-/

set_option autoImplicit false

namespace NP

open Spec

theorem list_set_self_eq {α : Type _} {l : List α} {c : Nat} {v : α} (h : l[c]? = some v) :
    l.set c v = l := by
  apply List.ext_getElem?
  intro i
  by_cases hi : c = i
  · subst hi; rw [List.getElem?_set_self (List.getElem?_eq_some_iff.1 h).1, h]
  · rw [List.getElem?_set_ne hi]

/-- `set_nrow` of every cell with the hint. -/
theorem hintRows_spec {e : Env} {ncell hint : Nat} {m : Mem} {d : Dat} (h : DatMem ncell m d) :
    ∃ m' d', forLoop 0 ncell (fun c s => setNrow e c hint s) (m, d) = some (m', d') ∧
      DatMem ncell m' d' ∧ d'.nrow = List.replicate ncell hint ∧ d'.sym = d.sym ∧
      d'.ncomp = d.ncomp ∧ d'.hNpart = d.hNpart ∧ d'.dNpart = d.dNpart ∧
      (∀ k, k.sym ≠ d.sym → m' k = m k) := by
  have h0 := reallocDat_spec (e := e) (counts := List.replicate ncell hint) h (by simp)
  obtain ⟨m', d', h1, h2, h3, h4, h5, h6, h7, h8, -⟩ := h0
  refine ⟨m', d', ?_, h2, h3, h4, h5, h6, h7, h8⟩
  rw [← h1]
  unfold reallocDat forLoop
  apply runItems_congr
  intro c hc s
  simp only [List.mem_range'_1] at hc
  simp only [rd]
  rw [List.getElem?_replicate, if_pos (by omega)]
  rfl

/-- A newly added property. -/
theorem addDatCommon_spec {e : Env} {g : Group} {sym ncomp : Nat}
    (hl : g.hNpart.length = g.ncell) (hint : g.hint = 0 ∨ ∀ n ∈ g.hNpart, n ≤ g.hint) :
    ∃ m d, addDatCommon e g (newDat g.ncell sym ncomp) =
        some { g with mem := m, dats := g.dats ++ [d] } ∧
      d.sym = sym ∧ d.ncomp = ncomp ∧ DatOk { g with mem := m, dats := g.dats ++ [d] } d ∧
      (∀ k, k.sym ≠ sym → m k = g.mem k) := by
  have hnew : DatMem g.ncell g.mem (newDat g.ncell sym ncomp) := by
    refine ⟨by simp [newDat], by simp [newDat], ?_, ?_⟩
    · intro c r a hr ha
      simp only [newDat, List.getElem?_replicate] at hr ha
      by_cases hc : c < g.ncell
      · rw [if_pos hc] at hr ha; simp at hr ha; omega
      · rw [if_neg hc] at hr; simp at hr
    · intro c a j k ha _ hk
      simp only [newDat, List.getElem?_replicate] at ha
      by_cases hc : c < g.ncell
      · rw [if_pos hc] at ha; simp at ha; omega
      · rw [if_neg hc] at ha; simp at ha
  obtain ⟨m1, d1, a1, a2, a3, a4, a5, a6, a7, a8, -⟩ := reallocDat_spec (e := e) hnew hl
  unfold addDatCommon
  rw [a1]
  simp only [Option.bind_some]
  rw [copyCounts_eq hl (by rw [a6]; simp [newDat])]
  simp only [Option.bind_some]
  rw [copyCounts_eq hl (by rw [a7]; simp [newDat])]
  simp only [Option.bind_some]
  have hd1 : DatMem g.ncell m1 { d1 with hNpart := g.hNpart, dNpart := g.hNpart } :=
    ⟨a2.nrow_len, a2.alloc_len, a2.le, a2.alloc⟩
  by_cases h0 : g.hint > 0
  · rw [if_pos h0]
    obtain ⟨m2, d2, b1, b2, b3, b4, b5, b6, b7, b8⟩ := hintRows_spec (e := e) (hint := g.hint) hd1
    rw [b1]
    simp only [Option.bind_some]
    refine ⟨m2, d2, rfl, by rw [b4]; exact a4, by rw [b5]; exact a5,
      ⟨b2, b6, b7, ?_, fun h => absurd h (by simp only; omega)⟩, ?_⟩
    · intro c n r hn hr
      rw [b3, List.getElem?_replicate] at hr
      by_cases hc : c < g.ncell
      · rw [if_pos hc] at hr
        simp only [Option.some.injEq] at hr
        have := (hint.resolve_left (by omega)) n (List.mem_of_getElem? hn)
        omega
      · rw [if_neg hc] at hr; simp at hr
    · intro k hk
      rw [b8 k (by simp only; rw [a4]; exact hk), a8 k hk]
  · rw [if_neg h0]
    simp only [Option.bind_some]
    refine ⟨m1, _, rfl, a4, a5, ⟨hd1, rfl, rfl, ?_, fun _ => a3⟩, a8⟩
    intro c n r hn hr
    simp only [a3] at hr hn
    rw [hn] at hr
    simp only [Option.some.injEq] at hr
    omega

/-- The bookkeeping of a group without the requirement that certain properties exist. -/
structure Book (g : Group) : Prop where
  len : g.hNpart.length = g.ncell
  device : g.dNpart = g.hNpart
  es_len : g.npartEs.length = g.ncell
  es : ∀ c, c < g.ncell → g.npartEs[c]? = some ((g.hNpart.take c).sum)
  total : g.npartLocal = g.hNpart.sum
  nodup : (g.dats.map (·.sym)).Nodup
  dats : ∀ d ∈ g.dats, DatOk g d

theorem Spec.Consistent.book {g : Group} (h : Consistent g) : Book g :=
  ⟨h.len, h.device, h.es_len, h.es, h.total, h.nodup, h.dats⟩

theorem Spec.Consistent.counts {g : Group} (h : Consistent g) : CountsOk g := by
  obtain ⟨d, hd, h1, -⟩ := h.cell
  exact ⟨h.len, h.device, h.es_len, h.es, h.total,
    fun d hd => ⟨(h.dats d hd).host, (h.dats d hd).device⟩, h.nodup, h.pos, h.rank,
    List.mem_map.2 ⟨d, hd, h1⟩⟩

theorem Spec.DatOk.congr {g g' : Group} {d : Dat} (h : DatOk g d) (h1 : g'.ncell = g.ncell)
    (h2 : g'.hNpart = g.hNpart) (h3 : g'.hint = g.hint)
    (hm : ∀ k, k.sym = d.sym → g'.mem k = g.mem k) : DatOk g' d := by
  refine ⟨?_, by rw [h2]; exact h.host, by rw [h2]; exact h.device, by rw [h2]; exact h.rows,
    by rw [h2, h3]; exact h.exact⟩
  rw [h1]
  exact ⟨h.mem.nrow_len, h.mem.alloc_len, h.mem.le, fun c a j k ha hj hk => by
    rw [hm _ rfl]; exact h.mem.alloc c a j k ha hj hk⟩

/-- What `add_particle_dat` does with valid arguments. -/
theorem addParticleDat_book {e : Env} {g : Group} {sym ncomp : Nat} (hg : Book g)
    (hcomp : ∀ d ∈ g.dats, d.sym = sym → d.ncomp = ncomp)
    (hint : g.hint = 0 ∨ ∀ n ∈ g.hNpart, n ≤ g.hint) :
    ∃ g', addParticleDat e g sym ncomp = some g' ∧ Book g' ∧ SameNames g g' ∧
      g'.hNpart = g.hNpart ∧ (∃ new, g'.dats = g.dats ++ new) ∧
      (∃ d ∈ g'.dats, d.sym = sym ∧ d.ncomp = ncomp) ∧
      (∀ k, k.sym ∈ g.dats.map (·.sym) → g'.mem k = g.mem k) ∧
      (sym ∈ g.dats.map (·.sym) → g' = g) ∧
      (sym ∉ g.dats.map (·.sym) → ∃ d, g'.dats = g.dats ++ [d] ∧ d.sym = sym ∧ d.ncomp = ncomp) := by
  unfold addParticleDat
  by_cases hs : sym ∈ g.dats.map (·.sym)
  · obtain ⟨d, hd, h1, h2⟩ := dat?_of_mem_syms hs
    rw [h1]
    simp only
    rw [if_pos (hcomp d hd h2)]
    exact ⟨g, rfl, hg, SameNames.refl g, rfl, ⟨[], by simp⟩, ⟨d, hd, h2, hcomp d hd h2⟩,
      fun _ _ => rfl, fun _ => rfl, fun h => absurd hs h⟩
  · have hnone : g.dat? sym = none := by
      unfold Group.dat?
      rw [List.find?_eq_none]
      intro d hd h
      exact hs (List.mem_map.2 ⟨d, hd, by simpa using h⟩)
    rw [hnone]
    simp only
    obtain ⟨m, d, h1, h2, h3, h4, h5⟩ := addDatCommon_spec (e := e) (sym := sym) (ncomp := ncomp)
      hg.len hint
    rw [h1]
    refine ⟨_, rfl, ⟨hg.len, hg.device, hg.es_len, hg.es, hg.total, ?_, ?_⟩,
      ⟨rfl, rfl, rfl, rfl, rfl⟩, rfl, ⟨[d], rfl⟩, ⟨d, by simp, h2, h3⟩, ?_,
      fun h => absurd h hs, fun _ => ⟨d, rfl, h2, h3⟩⟩
    · simp only [List.map_append, List.map_cons, List.map_nil]
      rw [List.nodup_append]
      refine ⟨hg.nodup, by simp, ?_⟩
      intro a ha b hb
      simp only [List.mem_singleton] at hb
      rintro rfl
      rw [hb, h2] at ha
      exact hs ha
    · intro x hx
      simp only [List.mem_append, List.mem_singleton] at hx
      rcases hx with hx | rfl
      · refine (hg.dats x hx).congr rfl rfl rfl ?_
        intro k hk
        refine h5 k ?_
        rw [hk]; intro h
        exact hs (List.mem_map.2 ⟨x, hx, h⟩)
      · exact h4
    · intro k hk
      refine h5 k ?_
      rintro rfl
      exact hs hk

theorem addParticleDat_spec {e : Env} {g : Group} {sym ncomp : Nat} (hg : Consistent g)
    (hcomp : ∀ d ∈ g.dats, d.sym = sym → d.ncomp = ncomp)
    (hint : g.hint = 0 ∨ ∀ n ∈ g.hNpart, n ≤ g.hint) :
    ∃ g', addParticleDat e g sym ncomp = some g' ∧ Consistent g' ∧ SameNames g g' ∧
      g'.hNpart = g.hNpart ∧
      (∃ d ∈ g'.dats, d.sym = sym ∧ d.ncomp = ncomp) ∧
      (∀ k, k.sym ∈ g.dats.map (·.sym) → g'.mem k = g.mem k) ∧
      (sym ∈ g.dats.map (·.sym) → g' = g) ∧
      (sym ∉ g.dats.map (·.sym) → ∃ d, g'.dats = g.dats ++ [d] ∧ d.sym = sym ∧ d.ncomp = ncomp) := by
  obtain ⟨g', h1, h2, h3, h4, ⟨new, h5⟩, h6, h7, h8, h9⟩ := addParticleDat_book (e := e) hg.book
    hcomp hint
  refine ⟨g', h1, ⟨h2.len, h2.device, h2.es_len, h2.es, h2.total, h2.nodup, h2.dats, ?_, ?_, ?_⟩,
    h3, h4, h6, h7, h8, h9⟩
  · rw [h3.pos, h5, List.map_append]; exact List.mem_append_left _ hg.pos
  · rw [h3.rank, h5, List.map_append]; exact List.mem_append_left _ hg.rank
  · obtain ⟨d, hd, q1, q2⟩ := hg.cell
    rw [h3.cell, h5]
    exact ⟨d, List.mem_append_left _ hd, q1, q2⟩

theorem removeParticleDat_spec {g : Group} {sym : Nat} (hg : Consistent g)
    (hs : sym ∈ g.dats.map (·.sym)) (hp : sym ≠ g.posSym) (hr : sym ≠ g.rankSym)
    (hc : sym ≠ g.cellSym) :
    ∃ g', removeParticleDat g sym = some g' ∧ Consistent g' ∧ SameNames g g' ∧
      g'.hNpart = g.hNpart ∧ g'.dats = g.dats.filter (fun d => d.sym != sym) ∧
      (∀ k, k.sym ≠ sym → g'.mem k = g.mem k) := by
  obtain ⟨d, hd, h1, h2⟩ := dat?_of_mem_syms hs
  unfold removeParticleDat
  rw [if_pos ⟨by rw [h1]; rfl, hp, hr, hc⟩]
  have hkeep : ∀ s, s ≠ sym → s ∈ g.dats.map (·.sym) →
      s ∈ (g.dats.filter (fun d => d.sym != sym)).map (·.sym) := by
    intro s hs hm
    obtain ⟨d, hd, rfl⟩ := List.mem_map.1 hm
    exact List.mem_map.2 ⟨d, List.mem_filter.2 ⟨hd, by simpa using hs⟩, rfl⟩
  refine ⟨_, rfl, ⟨hg.len, hg.device, hg.es_len, hg.es, hg.total, ?_, ?_, hkeep _ (Ne.symm hp) hg.pos,
    hkeep _ (Ne.symm hr) hg.rank, ?_⟩, ⟨rfl, rfl, rfl, rfl, rfl⟩, rfl, rfl, ?_⟩
  · exact hg.nodup.sublist (List.filter_sublist.map _)
  · intro x hx
    obtain ⟨hx, hne⟩ := List.mem_filter.1 hx
    refine (hg.dats x hx).congr rfl rfl rfl ?_
    intro k hk
    simp only
    rw [if_neg]
    rw [hk]; simpa using hne
  · obtain ⟨x, hx, q1, q2⟩ := hg.cell
    exact ⟨x, List.mem_filter.2 ⟨hx, by rw [q1]; simpa using Ne.symm hc⟩, q1, q2⟩
  · intro k hk
    simp only
    rw [if_neg hk]

theorem clearGroup_spec {e : Env} {g : Group} (hg : Consistent g) :
    ∃ g', clearGroup e g = some g' ∧ Consistent g' ∧ SameNames g g' ∧
      SameSyms g.dats g'.dats ∧ g'.hNpart = List.replicate g.ncell 0 := by
  have hz : forLoop 0 g.ncell (fun c a => st a c 0) g.hNpart =
      some (List.replicate g.ncell 0) := by
    obtain ⟨r, h1, h2, h3⟩ := forLoop_invariant (a := 0) (b := g.ncell) (s := g.hNpart)
      (step := fun c a => st a c 0)
      (P := fun i s => s.length = g.ncell ∧ ∀ c, c < i → s[c]? = some 0) (by omega)
      (by
        rintro i s _ hi ⟨q1, q2⟩
        refine ⟨s.set i 0, st_eq_some (by omega), by simp [q1], ?_⟩
        intro c hc
        by_cases hci : c = i
        · subst hci; rw [List.getElem?_set_self (by omega)]
        · rw [List.getElem?_set_ne (by omega)]; exact q2 c (by omega))
      ⟨hg.len, fun _ hc => by omega⟩
    rw [h1]
    congr 1
    apply List.ext_getElem?
    intro c
    by_cases hc : c < g.ncell
    · rw [h3 c hc, List.getElem?_replicate, if_pos hc]
    · rw [List.getElem?_eq_none (by omega), List.getElem?_replicate, if_neg hc]
  unfold clearGroup
  rw [hz]
  simp only [Option.bind_some]
  obtain ⟨es, h1, h2, h3⟩ := syncCounts_spec (g := { g with hNpart := List.replicate g.ncell 0 })
    (by simp) (by simp only; rw [hg.device]; exact hg.len) hg.es_len
  rw [h1]
  simp only [Option.bind_some]
  obtain ⟨m, dats, k1, k2, k3, -, -⟩ := mapDats_realloc (e := e) (ncell := g.ncell)
    (counts := List.replicate g.ncell 0) (m := g.mem) (dats := g.dats)
    (fun d hd => (hg.dats d hd).mem) hg.nodup (by simp)
  unfold reallocAllDats
  simp only
  rw [k1]
  simp only [Option.bind_some]
  have hss : SameSyms g.dats dats := k2.imp (fun a b h => ⟨h.sym, h.ncomp⟩)
  have hN : ∀ d ∈ dats, d.hNpart = g.hNpart ∧ d.dNpart = g.hNpart ∧
      d.nrow = List.replicate g.ncell 0 := by
    intro d hd
    obtain ⟨d0, hd0, q⟩ := forall₂_mem_right k2 hd
    exact ⟨by rw [q.host]; exact (hg.dats d0 hd0).host,
      by rw [q.device]; exact (hg.dats d0 hd0).device, q.nrow⟩
  obtain ⟨dats3, f1, f2, f3⟩ := finish_spec (m3 := m) hg (by simp) h2 h3 hss
    (fun d hd => ⟨k3 d hd, hN d hd⟩) (fun _ h => h)
  rw [f1]
  simp only [Option.bind_some]
  exact ⟨_, rfl, f3 _, ⟨rfl, rfl, rfl, rfl, rfl⟩, f2, rfl⟩

/-! ## Creation -/

theorem emptyGroup_book (ncell p r c hint : Nat) : Book (emptyGroup ncell p r c hint) := by
  refine ⟨by simp [emptyGroup], rfl, by simp [emptyGroup], ?_, by simp [emptyGroup],
    by simp [emptyGroup], by simp [emptyGroup]⟩
  intro i hi
  simp only [emptyGroup] at hi ⊢
  rw [List.getElem?_replicate, if_pos hi]
  simp

/-- Properties given more than once have the same number of components each time. -/
def Spec.SpecOk (spec : List (Nat × Nat)) : Prop :=
  ∀ x ∈ spec, ∀ y ∈ spec, x.1 = y.1 → x.2 = y.2

theorem addDats_book {e : Env} {spec : List (Nat × Nat)} {g : Group} (hg : Book g)
    (hzero : ∀ n ∈ g.hNpart, n = 0)
    (hspec : Spec.SpecOk spec) (hd : ∀ d ∈ g.dats, ∀ x ∈ spec, d.sym = x.1 → d.ncomp = x.2) :
    ∃ g', runItems (fun x g => addParticleDat e g x.1 x.2) spec g = some g' ∧ Book g' ∧
      SameNames g g' ∧ g'.hNpart = g.hNpart ∧
      (∀ s n, (∃ d ∈ g'.dats, d.sym = s ∧ d.ncomp = n) ↔
        (∃ d ∈ g.dats, d.sym = s ∧ d.ncomp = n) ∨ (s, n) ∈ spec) := by
  induction spec generalizing g with
  | nil => exact ⟨g, rfl, hg, SameNames.refl g, rfl, by simp⟩
  | cons x xs ih =>
    rw [runItems_cons]
    obtain ⟨g1, h1, h2, h3, h4, h5, h6, -, h8, h9⟩ := addParticleDat_book (e := e) (sym := x.1)
      (ncomp := x.2) hg (fun d hdm h => hd d hdm x (by simp) h)
      (Or.inr (fun n hn => by rw [hzero n hn]; omega))
    rw [h1]
    simp only [Option.bind_some]
    have hg1 : ∀ s n, (∃ d ∈ g1.dats, d.sym = s ∧ d.ncomp = n) ↔
        (∃ d ∈ g.dats, d.sym = s ∧ d.ncomp = n) ∨ (s, n) = x := by
      intro s n
      by_cases hs : x.1 ∈ g.dats.map (·.sym)
      · rw [h8 hs]
        constructor
        · exact Or.inl
        · rintro (h | h)
          · exact h
          · subst h
            obtain ⟨d, hdm, h⟩ := List.mem_map.1 hs
            exact ⟨d, hdm, h, hd d hdm _ (by simp) h⟩
      · obtain ⟨d, k1, k2, k3⟩ := h9 hs
        rw [k1]
        constructor
        · rintro ⟨y, hy, e1, e2⟩
          rcases List.mem_append.1 hy with hy | hy
          · exact Or.inl ⟨y, hy, e1, e2⟩
          · simp only [List.mem_singleton] at hy
            subst hy
            right
            rw [← e1, ← e2, k2, k3]
        · rintro (⟨y, hy, h⟩ | h)
          · exact ⟨y, List.mem_append_left _ hy, h⟩
          · subst h; exact ⟨d, by simp, k2, k3⟩
    obtain ⟨g', a1, a2, a3, a4, a5⟩ := ih h2 (by rw [h4]; exact hzero)
      (fun a ha b hb => hspec a (List.mem_cons_of_mem _ ha) b (List.mem_cons_of_mem _ hb))
      (by
        intro d hdm y hy hdy
        rcases (hg1 d.sym d.ncomp).1 ⟨d, hdm, rfl, rfl⟩ with ⟨d', hd', e1, e2⟩ | h
        · rw [← e2]; exact hd d' hd' y (List.mem_cons_of_mem _ hy) (by rw [e1]; exact hdy)
        · have := hspec x (by simp) y (List.mem_cons_of_mem _ hy) (by rw [← h]; exact hdy)
          rw [← this, ← h])
    refine ⟨g', a1, a2, h3.trans a3, a4.trans h4, ?_⟩
    intro s n
    rw [a5, hg1, List.mem_cons, or_assoc]

end NP
