import Verif.Group.SpecHistory
import Verif.Group.LemmasAdd

/-!
# Lemmas: counts after any call that returns

These do not assume anything about the arguments of the calls.
-/

set_option autoImplicit false

namespace NP

open Spec

theorem runItems_partial {ι σ : Type _} {step : ι → σ → Option σ} {P : Nat → σ → Prop}
    {items : List ι} {s s' : σ} {i : Nat}
    (hstep : ∀ (i : Nat) (x : ι) (s s' : σ), x ∈ items → step x s = some s' → P i s →
      P (i + 1) s')
    (h0 : P i s) (h : runItems step items s = some s') : P (i + items.length) s' := by
  induction items generalizing s i with
  | nil =>
    simp only [runItems_nil, Option.some.injEq] at h
    subst h; exact h0
  | cons x xs ih =>
    rw [runItems_cons, Option.bind_eq_some_iff] at h
    obtain ⟨s1, h1, h2⟩ := h
    have := ih (fun i x s s' hx => hstep i x s s' (List.mem_cons_of_mem _ hx))
      (hstep i x s s1 (by simp) h1 h0) h2
    rw [List.length_cons]
    rwa [show i + (xs.length + 1) = i + 1 + xs.length by omega]

/-- Partial correctness of a loop. -/
theorem forLoop_partial {σ : Type _} {n : Nat} {step : Nat → σ → Option σ}
    (P : Nat → σ → Prop) {s s' : σ}
    (hstep : ∀ i s s', i < n → step i s = some s' → P i s → P (i + 1) s')
    (h0 : P 0 s) (h : forLoop 0 n step s = some s') : P n s' := by
  induction n generalizing s' with
  | zero =>
    simp only [forLoop, Nat.sub_self, List.range'_zero, runItems_nil, Option.some.injEq] at h
    subst h; exact h0
  | succ n ih =>
    unfold forLoop at h
    rw [show n + 1 - 0 = n + 1 from rfl, List.range'_concat, runItems_append,
      Option.bind_eq_some_iff] at h
    obtain ⟨s1, h1, h2⟩ := h
    rw [runItems_cons, Option.bind_eq_some_iff] at h2
    obtain ⟨s2, h2, h3⟩ := h2
    simp only [runItems_nil, Option.some.injEq] at h3
    subst h3
    rw [show 0 + 1 * n = n by omega] at h2
    exact hstep n s1 s2 (by omega) h2
      (ih (fun i s s' hi => hstep i s s' (by omega)) h1)

theorem st_some {α : Type _} {m m' : List α} {i : Nat} {v : α} (h : st m i v = some m') :
    i < m.length ∧ m' = m.set i v := by
  unfold st at h
  split at h
  · rename_i hi
    simp only [Option.some.injEq] at h
    exact ⟨hi, h.symm⟩
  · simp at h

theorem copyCounts_some {ncell : Nat} {src dst r : List Nat} (h : copyCounts ncell src dst = some r)
    (hd : dst.length = ncell) : r = src.take ncell ∧ r.length = ncell := by
  have key := forLoop_partial (n := ncell)
    (P := fun i (a : List Nat) => a.length = ncell ∧ i ≤ src.length ∧
      ∀ c, c < i → a[c]? = src[c]?) (by
      rintro i s s' hi hs ⟨g1, g2, g3⟩
      rw [Option.bind_eq_some_iff] at hs
      obtain ⟨v, hv, hs⟩ := hs
      simp only [rd] at hv
      obtain ⟨hi', rfl⟩ := st_some hs
      have := (List.getElem?_eq_some_iff.1 hv).1
      refine ⟨by simp [g1], by omega, ?_⟩
      intro c hc
      by_cases hci : c = i
      · subst hci; rw [List.getElem?_set_self hi', hv]
      · rw [List.getElem?_set_ne (by omega)]; exact g3 c (by omega))
    ⟨hd, by omega, fun c hc => by omega⟩ h
  obtain ⟨g1, g2, g3⟩ := key
  refine ⟨?_, g1⟩
  apply List.ext_getElem?
  intro c
  rw [List.getElem?_take]
  by_cases hc : c < ncell
  · rw [if_pos hc]; exact g3 c hc
  · rw [if_neg hc, List.getElem?_eq_none (by omega)]

theorem recomputeEs_some {ncell : Nat} {npart es : List Nat} {r : List Nat × Nat}
    (h : recomputeEs ncell npart es = some r) (he : es.length = ncell) :
    r.1.length = ncell ∧ r.2 = (npart.take ncell).sum ∧
      ∀ c, c < ncell → r.1[c]? = some ((npart.take c).sum) := by
  have key := forLoop_partial (n := ncell)
    (P := fun i (a : List Nat × Nat) => a.1.length = ncell ∧ a.2 = (npart.take i).sum ∧
      ∀ c, c < i → a.1[c]? = some ((npart.take c).sum)) (by
      rintro i s s' hi hs ⟨g1, g2, g3⟩
      rw [Option.bind_eq_some_iff] at hs
      obtain ⟨v, hv, hs⟩ := hs
      rw [Option.bind_eq_some_iff] at hs
      obtain ⟨e1, he1, hs⟩ := hs
      simp only [Option.some.injEq] at hs
      subst hs
      simp only [rd] at hv
      obtain ⟨hi', rfl⟩ := st_some he1
      refine ⟨by simp [g1], ?_, ?_⟩
      · simp only; rw [List.take_add_one, hv, g2]; simp
      intro c hc
      by_cases hci : c = i
      · subst hci; rw [List.getElem?_set_self hi', g2]
      · rw [List.getElem?_set_ne (by omega)]; exact g3 c (by omega))
    ⟨he, by simp, fun c hc => by omega⟩ h
  exact key

/-! ## Dats -/

/-- What every action on the dats here keeps. -/
abbrev SameCounts (d d' : Dat) : Prop :=
  d'.sym = d.sym ∧ d'.ncomp = d.ncomp ∧ d'.hNpart = d.hNpart ∧ d'.dNpart = d.dNpart

theorem setNrow_some {e : Env} {c req : Nat} {s s' : Mem × Dat} (h : setNrow e c req s = some s') :
    SameCounts s.2 s'.2 := by
  obtain ⟨m, d⟩ := s
  unfold setNrow at h
  simp only [Option.bind_eq_some_iff] at h
  obtain ⟨alloc, -, existing, -, h⟩ := h
  repeat' split at h
  all_goals
    simp only [Option.some.injEq] at h
    subst h
    exact ⟨rfl, rfl, rfl, rfl⟩

theorem SameCounts.trans {a b c : Dat} (h : SameCounts a b) (h' : SameCounts b c) :
    SameCounts a c :=
  ⟨h'.1.trans h.1, h'.2.1.trans h.2.1, h'.2.2.1.trans h.2.2.1, h'.2.2.2.trans h.2.2.2⟩

theorem reallocDat_some {e : Env} {ncell : Nat} {counts : List Nat} {s s' : Mem × Dat}
    (h : reallocDat e ncell counts s = some s') : SameCounts s.2 s'.2 := by
  refine forLoop_partial (n := ncell) (P := fun _ t => SameCounts s.2 t.2) ?_
    ⟨rfl, rfl, rfl, rfl⟩ h
  intro i t t' _ ht hp
  rw [Option.bind_eq_some_iff] at ht
  obtain ⟨v, -, ht⟩ := ht
  exact hp.trans (setNrow_some ht)

theorem mapDats_some {f : Mem × Dat → Option (Mem × Dat)}
    (hf : ∀ s s', f s = some s' → SameCounts s.2 s'.2) {dats : List Dat} {m : Mem}
    {r : Mem × List Dat} (h : mapDats f dats m = some r) :
    List.Forall₂ SameCounts dats r.2 := by
  induction dats generalizing m r with
  | nil =>
    simp only [mapDats, Option.some.injEq] at h
    subst h; exact List.Forall₂.nil
  | cons d ds ih =>
    simp only [mapDats, Option.bind_eq_some_iff] at h
    obtain ⟨r1, h1, r2, h2, h3⟩ := h
    simp only [Option.some.injEq] at h3
    subst h3
    exact List.Forall₂.cons (hf _ _ h1) (ih h2)

theorem mapM_some {α β : Type} {f : α → Option β} {l : List α} {l' : List β}
    (h : l.mapM f = some l') : List.Forall₂ (fun a b => f a = some b) l l' := by
  induction l generalizing l' with
  | nil =>
    simp only [List.mapM_nil, Option.pure_def, Option.some.injEq] at h
    subst h; exact List.Forall₂.nil
  | cons a l ih =>
    rw [List.mapM_cons] at h
    simp only [Option.bind_eq_bind, Option.pure_def, Option.bind_eq_some_iff] at h
    obtain ⟨b, h1, bs, h2, h3⟩ := h
    simp only [Option.some.injEq] at h3
    subst h3
    exact List.Forall₂.cons h1 (ih h2)

/-- All dats report the counts `N`. -/
structure Counted (ncell : Nat) (N : List Nat) (dats : List Dat) : Prop where
  len : N.length = ncell
  host : ∀ d ∈ dats, d.hNpart = N ∧ d.dNpart = N

theorem Counted.congr {ncell : Nat} {N : List Nat} {dats dats' : List Dat}
    (h : Counted ncell N dats) (hs : List.Forall₂ SameCounts dats dats') :
    Counted ncell N dats' := by
  refine ⟨h.len, ?_⟩
  intro d' hd'
  obtain ⟨d, hd, h1⟩ := forall₂_mem_right hs hd'
  rw [h1.2.2.1, h1.2.2.2]
  exact h.host d hd

theorem sameSyms_of_counts {dats dats' : List Dat} (hs : List.Forall₂ SameCounts dats dats') :
    SameSyms dats dats' := hs.imp (fun _ _ h => ⟨h.1, h.2.1⟩)

theorem reallocAllDats_some {e : Env} {g g' : Group} (h : reallocAllDats e g = some g') :
    ∃ m dats, g' = { g with mem := m, dats := dats } ∧ List.Forall₂ SameCounts g.dats dats := by
  unfold reallocAllDats at h
  rw [Option.bind_eq_some_iff] at h
  obtain ⟨r, h1, h2⟩ := h
  simp only [Option.some.injEq] at h2
  exact ⟨_, _, h2.symm, mapDats_some (fun s s' => reallocDat_some) h1⟩

theorem updDats_npart_some {g g' : Group} {N : List Nat} {h d : List Nat}
    (hN : Counted g.ncell N g.dats)
    (hu : updDats (setNpartHostDevice g.ncell h d) g = some g') :
    ∃ dats, g' = { g with dats := dats } ∧ SameSyms g.dats dats ∧
      ∀ x ∈ dats, x.hNpart = h.take g.ncell ∧ x.dNpart = d.take g.ncell ∧
        x.hNpart.length = g.ncell := by
  unfold updDats at hu
  rw [Option.bind_eq_some_iff] at hu
  obtain ⟨dats, h1, h2⟩ := hu
  simp only [Option.some.injEq] at h2
  have h3 := mapM_some h1
  have h4 : ∀ a b, a ∈ g.dats → setNpartHostDevice g.ncell h d a = some b →
      (b.sym = a.sym ∧ b.ncomp = a.ncomp) ∧ b.hNpart = h.take g.ncell ∧
        b.dNpart = d.take g.ncell ∧ b.hNpart.length = g.ncell := by
    intro a b ha hb
    unfold setNpartHostDevice at hb
    rw [Option.bind_eq_some_iff] at hb
    obtain ⟨hN1, q1, hb⟩ := hb
    rw [Option.bind_eq_some_iff] at hb
    obtain ⟨dN1, q2, hb⟩ := hb
    simp only [Option.some.injEq] at hb
    subst hb
    have c1 := copyCounts_some q1 (by rw [(hN.host a ha).1]; exact hN.len)
    have c2 := copyCounts_some q2 (by rw [(hN.host a ha).2]; exact hN.len)
    exact ⟨⟨rfl, rfl⟩, c1.1, c2.1, c1.2⟩
  refine ⟨dats, h2.symm, ?_, ?_⟩
  · have : ∀ (l : List Dat) (l' : List Dat), (∀ a ∈ l, a ∈ g.dats) →
        List.Forall₂ (fun a b => setNpartHostDevice g.ncell h d a = some b) l l' →
        SameSyms l l' := by
      intro l l' hl hf
      induction hf with
      | nil => exact List.Forall₂.nil
      | cons hab _ ih =>
        exact List.Forall₂.cons (h4 _ _ (hl _ (by simp)) hab).1
          (ih (fun a ha => hl a (List.mem_cons_of_mem _ ha)))
    exact this _ _ (fun _ ha => ha) h3
  · intro x hx
    obtain ⟨a, ha, hax⟩ := forall₂_mem_right h3 hx
    exact (h4 a x ha hax).2

theorem updDats_trim_some {g g' : Group} (hu : updDats (trimDat g.ncell) g = some g') :
    ∃ dats, g' = { g with dats := dats } ∧ List.Forall₂ SameCounts g.dats dats := by
  unfold updDats at hu
  rw [Option.bind_eq_some_iff] at hu
  obtain ⟨dats, h1, h2⟩ := hu
  simp only [Option.some.injEq] at h2
  refine ⟨dats, h2.symm, (mapM_some h1).imp ?_⟩
  intro a b hab
  unfold trimDat at hab
  rw [Option.bind_eq_some_iff] at hab
  obtain ⟨nr, -, hab⟩ := hab
  simp only [Option.some.injEq] at hab
  subst hab
  exact ⟨rfl, rfl, rfl, rfl⟩

/-! ## Calls -/

/-- The parts of a group that no call on counts changes. -/
structure SameNames (g g' : Group) : Prop where
  ncell : g'.ncell = g.ncell
  pos : g'.posSym = g.posSym
  rank : g'.rankSym = g.rankSym
  cell : g'.cellSym = g.cellSym
  hint : g'.hint = g.hint

theorem SameNames.refl (g : Group) : SameNames g g := ⟨rfl, rfl, rfl, rfl, rfl⟩

theorem SameNames.trans {a b c : Group} (h : SameNames a b) (h' : SameNames b c) :
    SameNames a c :=
  ⟨h'.ncell.trans h.ncell, h'.pos.trans h.pos, h'.rank.trans h.rank, h'.cell.trans h.cell,
    h'.hint.trans h.hint⟩

theorem Spec.CountsOk.counted {g : Group} (h : CountsOk g) : Counted g.ncell g.hNpart g.dats :=
  ⟨h.len, h.host⟩

/-- Counts of a group after `syncCounts` with new counts `N`. -/
theorem syncCounts_some {g g' : Group} {N : List Nat} (hg : CountsOk g) (hN : N.length = g.ncell)
    (h : syncCounts { g with hNpart := N } = some g') :
    ∃ es, g' = { g with hNpart := N, dNpart := N, npartEs := es, npartLocal := N.sum } ∧
      es.length = g.ncell ∧ ∀ c, c < g.ncell → es[c]? = some ((N.take c).sum) := by
  unfold syncCounts at h
  simp only [Option.bind_eq_some_iff] at h
  obtain ⟨dN, h1, r, h2, h3⟩ := h
  have c1 := copyCounts_some h1 (by rw [hg.device]; exact hg.len)
  have c2 := recomputeEs_some h2 hg.es_len
  simp only [Option.some.injEq] at h3
  have e1 : dN = N := by rw [c1.1, List.take_of_length_le (by omega)]
  have e2 : r.2 = N.sum := by rw [c2.2.1, List.take_of_length_le (by omega)]
  refine ⟨r.1, ?_, c2.1, c2.2.2⟩
  rw [← h3, e1, e2]

/-- The common end of the calls that add particles. -/
theorem countsOk_of_upd {g g' : Group} {N es : List Nat} {m : Mem} {dats : List Dat}
    (hg : CountsOk g) (hN : N.length = g.ncell) (hel : es.length = g.ncell)
    (hes : ∀ c, c < g.ncell → es[c]? = some ((N.take c).sum))
    (hs : List.Forall₂ SameCounts g.dats dats)
    (hu : updDats (setNpartHostDevice g.ncell N N)
      { g with hNpart := N, dNpart := N, npartEs := es, npartLocal := N.sum, mem := m,
               dats := dats } = some g') : CountsOk g' ∧ SameNames g g' := by
  obtain ⟨dats', e1, e2, e3⟩ := updDats_npart_some (N := g.hNpart)
    (g := { g with hNpart := N, dNpart := N, npartEs := es, npartLocal := N.sum, mem := m,
                   dats := dats }) (hg.counted.congr hs) hu
  subst e1
  have hss : SameSyms g.dats dats' := (sameSyms_of_counts hs).trans e2
  have htk : N.take g.ncell = N := List.take_of_length_le (by omega)
  refine ⟨⟨hN, rfl, hel, hes, rfl, ?_, ?_, ?_, ?_, ?_⟩, ⟨rfl, rfl, rfl, rfl, rfl⟩⟩
  · intro d hd
    obtain ⟨h1, h2, -⟩ := e3 d hd
    simp only at h1 h2 ⊢
    rw [h1, h2, htk]; exact ⟨rfl, rfl⟩
  · simp only; rw [syms_congr hss]; exact hg.nodup
  · exact mem_syms_congr hss hg.pos
  · exact mem_syms_congr hss hg.rank
  · exact mem_syms_congr hss hg.cell

theorem Spec.CountsOk.version {g : Group} (h : CountsOk g) (v : Nat) :
    CountsOk { g with version := v } :=
  ⟨h.len, h.device, h.es_len, h.es, h.total, h.host, h.nodup, h.pos, h.rank, h.cell⟩

theorem fetchAdd_some {ctr : List Nat} {i : Nat} {r : Nat × List Nat}
    (h : fetchAdd ctr i = some r) : r.2.length = ctr.length := by
  unfold fetchAdd at h
  rw [Option.bind_eq_some_iff] at h
  obtain ⟨v, -, h⟩ := h
  simp only [Option.some.injEq] at h
  subst h
  simp

theorem addParticleSet_counts {e : Env} {g g' : Group} {ps : PSet} (hg : CountsOk g)
    (h : addParticleSet e g ps = some g') : CountsOk g' ∧ SameNames g g' := by
  unfold addParticleSet at h
  dsimp only at h
  split at h
  · simp only [Option.some.injEq] at h
    subst h
    exact ⟨hg.version _, ⟨rfl, rfl, rfl, rfl, rfl⟩⟩
  split at h
  · simp at h
  simp only [Option.bind_eq_some_iff] at h
  obtain ⟨ids, -, r, h1, g1, h2, g2, h3, m, h4, h5⟩ := h
  have hN : r.1.length = g.ncell := by
    refine forLoop_partial (P := fun _ s => s.1.length = g.ncell) ?_ hg.len h1
    intro i s s' _ hs hp
    unfold setLayerStep at hs
    rw [Option.bind_eq_some_iff] at hs
    obtain ⟨v, -, hs⟩ := hs
    split at hs
    · simp only [Option.bind_eq_some_iff] at hs
      obtain ⟨q, q1, l, -, hs⟩ := hs
      simp only [Option.some.injEq] at hs
      subst hs
      rw [fetchAdd_some q1]; exact hp
    · simp at hs
  obtain ⟨es, rfl, k2, k3⟩ := syncCounts_some (hg.version (g.version + 1)) hN h2
  obtain ⟨m2, dats, rfl, k4⟩ := reallocAllDats_some h3
  obtain ⟨q1, q2⟩ := countsOk_of_upd (hg.version (g.version + 1)) hN k2 k3 k4 h5
  exact ⟨q1, ⟨q2.ncell, q2.pos, q2.rank, q2.cell, q2.hint⟩⟩

theorem ite_none_some_iff {α : Type _} {c : Prop} [Decidable c] {x : Option α} {y : α} :
    (if c then none else x) = some y ↔ ¬ c ∧ x = some y := by
  by_cases h : c <;> simp [h]

theorem addGroup_counts {e : Env} {g g' src : Group} (hg : CountsOk g)
    (h : addGroup e g src = some g') : CountsOk g' ∧ SameNames g g' := by
  unfold addGroup at h
  rw [ite_none_some_iff] at h
  obtain ⟨-, h⟩ := h
  rw [ite_none_some_iff] at h
  obtain ⟨-, h⟩ := h
  rw [Option.bind_eq_some_iff] at h
  obtain ⟨r, h1, h⟩ := h
  rw [ite_none_some_iff] at h
  obtain ⟨-, h⟩ := h
  dsimp only at h
  rw [Option.bind_eq_some_iff] at h
  obtain ⟨g1, h2, h⟩ := h
  rw [ite_none_some_iff] at h
  obtain ⟨-, h⟩ := h
  simp only [Option.bind_eq_some_iff] at h
  obtain ⟨g2, h3, rank, -, visits, -, m, -, g3, h5, h6⟩ := h
  have hN : r.1.length = g.ncell := by
    refine forLoop_partial (P := fun _ s => s.1.length = g.ncell) ?_ hg.len h1
    intro i s s' _ hs hp
    unfold addCountStep at hs
    simp only [Option.bind_eq_some_iff] at hs
    obtain ⟨v, -, w, -, hs⟩ := hs
    simp only [Option.some.injEq] at hs
    subst hs
    simp [hp]
  obtain ⟨es, rfl, k2, k3⟩ := syncCounts_some hg hN h2
  obtain ⟨m2, dats, rfl, k4⟩ := reallocAllDats_some h3
  obtain ⟨q1, q2⟩ := countsOk_of_upd hg hN k2 k3 k4 h5
  simp only [Option.some.injEq] at h6
  subst h6
  exact ⟨q1.version _, ⟨q2.ncell, q2.pos, q2.rank, q2.cell, q2.hint⟩⟩

theorem getNewLayers_some {s : Sched} {ncell npart : Nat} {npartCells : List Nat}
    {cells layers : List Int} {r : List Nat × List Int}
    (h : getNewLayers s ncell npartCells npart cells layers = some r) :
    r.1.length = npartCells.length := by
  unfold getNewLayers at h
  split at h
  · refine runItems_partial (P := fun _ t => t.1.length = npartCells.length) (i := 0) ?_ rfl h
    intro i x t t' _ ht hp
    unfold newLayerStep at ht
    rw [Option.bind_eq_some_iff] at ht
    obtain ⟨v, -, ht⟩ := ht
    split at ht
    · simp only [Option.bind_eq_some_iff] at ht
      obtain ⟨q, q1, l, -, ht⟩ := ht
      simp only [Option.some.injEq] at ht
      subst ht
      rw [fetchAdd_some q1]; exact hp
    · simp only [Option.bind_eq_some_iff] at ht
      obtain ⟨l, -, ht⟩ := ht
      simp only [Option.some.injEq] at ht
      subst ht
      exact hp
  · simp only [Option.some.injEq] at h
    subst h; rfl

theorem addSubGroup_counts {e : Env} {g g' : Group} {src : SrcMem} {dats : List Dat} {n : Nat}
    {cells layers : List Int} (hg : CountsOk g)
    (h : addSubGroup e g src dats n cells layers = some g') : CountsOk g' ∧ SameNames g g' := by
  unfold addSubGroup at h
  split at h
  · simp only [Option.some.injEq] at h
    subst h
    exact ⟨hg.version _, ⟨rfl, rfl, rfl, rfl, rfl⟩⟩
  rw [Option.bind_eq_some_iff] at h
  obtain ⟨r, h1, h⟩ := h
  rw [Option.bind_eq_some_iff] at h
  obtain ⟨g1, h2, h⟩ := h
  rw [Option.bind_eq_some_iff] at h
  obtain ⟨g2, h3, h⟩ := h
  split at h
  · simp at h
  simp only [Option.bind_eq_some_iff] at h
  obtain ⟨m, -, g3, h5, h6⟩ := h
  have hN : r.1.length = g.ncell := by rw [getNewLayers_some h1]; exact hg.len
  obtain ⟨es, rfl, k2, k3⟩ := syncCounts_some hg hN h2
  obtain ⟨m2, dats, rfl, k4⟩ := reallocAllDats_some h3
  obtain ⟨q1, q2⟩ := countsOk_of_upd hg hN k2 k3 k4 h5
  simp only [Option.some.injEq] at h6
  subst h6
  exact ⟨q1.version _, ⟨q2.ncell, q2.pos, q2.rank, q2.cell, q2.hint⟩⟩

theorem compressorRemove_some {e : Env} {g g' : Group} {N : List Nat} {npart : Nat}
    {cells layers : List Int} (hN : Counted g.ncell N g.dats) (hne : g.dats ≠ [])
    (h : compressorRemove e g npart cells layers = some g') :
    ∃ m dats N', g' = { g with mem := m, dats := dats } ∧ SameSyms g.dats dats ∧
      Counted g.ncell N' dats := by
  unfold compressorRemove at h
  split at h
  · simp only [Option.some.injEq] at h
    subst h
    exact ⟨g.mem, g.dats, N, rfl, List.forall₂_same.2 (fun _ _ => ⟨rfl, rfl⟩), hN⟩
  rw [Option.bind_eq_some_iff] at h
  obtain ⟨rank, -, h⟩ := h
  rw [Option.bind_eq_some_iff] at h
  obtain ⟨r, -, h⟩ := h
  unfold compressorFinish at h
  dsimp only at h
  rw [Option.bind_eq_some_iff] at h
  obtain ⟨m, -, h⟩ := h
  rw [Option.bind_eq_some_iff] at h
  obtain ⟨g1, h1, h⟩ := h
  obtain ⟨d1, rfl, e2, e3⟩ := updDats_npart_some (g := { g with mem := m }) hN h1
  obtain ⟨d2, rfl, e4⟩ := updDats_trim_some h
  simp only at e2 e3 e4
  refine ⟨m, d2, r.2.npartNew.take g.ncell, rfl, e2.trans (sameSyms_of_counts e4), ?_, ?_⟩
  · obtain ⟨x, hx⟩ := List.exists_mem_of_ne_nil _ hne
    obtain ⟨y, hy, -⟩ := forall₂_mem_left e2 hx
    rw [← (e3 y hy).1]; exact (e3 y hy).2.2
  · intro d hd
    obtain ⟨y, hy, h2⟩ := forall₂_mem_right e4 hd
    rw [h2.2.2.1, h2.2.2.2]
    exact ⟨(e3 y hy).1, (e3 y hy).2.1⟩

theorem setNpartCellFromDat_some {g0 g g' : Group} {N : List Nat} {m : Mem} {dats : List Dat}
    (hg0 : CountsOk g0) (hg : g = { g0 with mem := m, dats := dats }) (hs : SameSyms g0.dats dats)
    (hN : Counted g0.ncell N dats) (h : setNpartCellFromDat g = some g') :
    CountsOk g' ∧ SameNames g0 g' := by
  subst hg
  unfold setNpartCellFromDat at h
  simp only [Option.bind_eq_some_iff] at h
  obtain ⟨pos, h1, hN1, h2, r, h3, h4⟩ := h
  have hposmem : pos ∈ dats := by
    unfold Group.dat? at h1
    exact List.mem_of_find?_eq_some h1
  have c1 := copyCounts_some h2 hg0.len
  rw [(hN.host pos hposmem).1, List.take_of_length_le (by rw [hN.len])] at c1
  obtain ⟨c1, -⟩ := c1
  subst c1
  have c2 := recomputeEs_some h3 hg0.es_len
  simp only [Option.some.injEq] at h4
  subst h4
  refine ⟨⟨hN.len, rfl, c2.1, c2.2.2, ?_, hN.host, ?_, ?_, ?_, ?_⟩, ⟨rfl, rfl, rfl, rfl, rfl⟩⟩
  · show r.2 = _
    rw [c2.2.1, List.take_of_length_le (by rw [hN.len])]; rfl
  · show (dats.map (·.sym)).Nodup
    rw [syms_congr hs]; exact hg0.nodup
  · exact mem_syms_congr hs hg0.pos
  · exact mem_syms_congr hs hg0.rank
  · exact mem_syms_congr hs hg0.cell

theorem Spec.CountsOk.dats_ne_nil {g : Group} (h : CountsOk g) : g.dats ≠ [] := by
  intro h0
  have := h.pos
  rw [h0] at this
  simp at this

theorem removeParticles_counts {e : Env} {g g' : Group} {npart : Nat} {cells layers : List Int}
    (hg : CountsOk g) (h : removeParticles e g npart cells layers = some g') :
    CountsOk g' ∧ SameNames g g' := by
  unfold removeParticles at h
  simp only [Option.bind_eq_some_iff] at h
  obtain ⟨g1, h1, g2, h2, h3⟩ := h
  obtain ⟨m, dats, N', rfl, k2, k3⟩ := compressorRemove_some hg.counted hg.dats_ne_nil h1
  obtain ⟨q1, q2⟩ := setNpartCellFromDat_some hg rfl k2 k3 h2
  simp only [Option.some.injEq] at h3
  subst h3
  exact ⟨q1.version _, ⟨q2.ncell, q2.pos, q2.rank, q2.cell, q2.hint⟩⟩

theorem removerRemove_counts {e e' : Env} {g g' : Group} {sym : Nat} {key : Int}
    (hg : CountsOk g) (h : removerRemove e e' g sym key = some g') :
    CountsOk g' ∧ SameNames g g' := by
  unfold removerRemove at h
  rw [Option.bind_eq_some_iff] at h
  obtain ⟨v0, -, h⟩ := h
  rw [Option.bind_eq_some_iff] at h
  obtain ⟨n, -, h⟩ := h
  split at h
  · simp only [Option.bind_eq_some_iff] at h
    obtain ⟨v1, -, r, -, h⟩ := h
    exact removeParticles_counts hg h
  · simp only [Option.some.injEq] at h
    subst h
    exact ⟨hg, SameNames.refl g⟩

theorem cellMove_counts {e e' : Env} {g g' : Group} (hg : CountsOk g)
    (h : cellMove e e' g = some g') : CountsOk g' ∧ SameNames g g' := by
  unfold cellMove at h
  simp only [Option.bind_eq_some_iff] at h
  obtain ⟨g1, h1, g2, h2, h3⟩ := h
  unfold cellMoveInner at h1
  rw [Option.bind_eq_some_iff] at h1
  obtain ⟨rank, -, h1⟩ := h1
  rw [Option.bind_eq_some_iff] at h1
  obtain ⟨cid, -, h1⟩ := h1
  dsimp only at h1
  rw [Option.bind_eq_some_iff] at h1
  obtain ⟨v0, -, h1⟩ := h1
  rw [Option.bind_eq_some_iff] at h1
  obtain ⟨r, -, h1⟩ := h1
  rw [Option.bind_eq_some_iff] at h1
  obtain ⟨cnt, -, h1⟩ := h1
  rw [Option.bind_eq_some_iff] at h1
  obtain ⟨exscan, -, h1⟩ := h1
  rw [Option.bind_eq_some_iff] at h1
  obtain ⟨mc, -, h1⟩ := h1
  split at h1
  · simp at h1
  simp only [Option.bind_eq_some_iff] at h1
  obtain ⟨v1, -, a, -, rr, hr, m, -, g3, h4, h5⟩ := h1
  have hsc := mapDats_some (fun s s' => reallocDat_some) hr
  obtain ⟨d1, rfl, e2, e3⟩ := updDats_npart_some (g := { g with mem := m, dats := rr.2 })
    (N := g.hNpart) (hg.counted.congr hsc) h4
  simp only at e2 e3
  have hss : SameSyms g.dats d1 := (sameSyms_of_counts hsc).trans e2
  have hne : d1 ≠ [] := by
    obtain ⟨x, hx⟩ := List.exists_mem_of_ne_nil _ hg.dats_ne_nil
    obtain ⟨y, hy, -⟩ := forall₂_mem_left hss hx
    exact List.ne_nil_of_mem hy
  obtain ⟨m', dats, N', rfl, k2, k3⟩ := compressorRemove_some (N := cnt.1.take g.ncell)
    (g := { g with mem := m, dats := d1 })
    ⟨by
      obtain ⟨y, hy⟩ := List.exists_mem_of_ne_nil _ hne
      rw [← (e3 y hy).1]; exact (e3 y hy).2.2,
     fun d hd => ⟨(e3 d hd).1, (e3 d hd).2.1⟩⟩ hne h5
  simp only at k2 k3
  obtain ⟨q1, q2⟩ := setNpartCellFromDat_some hg rfl (hss.trans k2) k3 h2
  simp only [Option.some.injEq] at h3
  subst h3
  exact ⟨q1.version _, ⟨q2.ncell, q2.pos, q2.rank, q2.cell, q2.hint⟩⟩

theorem clearGroup_counts {e : Env} {g g' : Group} (hg : CountsOk g)
    (h : clearGroup e g = some g') :
    CountsOk g' ∧ SameNames g g' ∧ g'.hNpart = List.replicate g.ncell 0 := by
  unfold clearGroup at h
  simp only [Option.bind_eq_some_iff] at h
  obtain ⟨N, h1, g1, h2, g2, h3, g3, h5, h6⟩ := h
  have hN : N.length = g.ncell ∧ ∀ c, c < g.ncell → N[c]? = some 0 := by
    refine forLoop_partial (P := fun i s => s.length = g.ncell ∧ ∀ c, c < i → s[c]? = some 0) ?_
      ⟨hg.len, fun _ hc => by omega⟩ h1
    intro i s s' _ hs hp
    obtain ⟨hi, rfl⟩ := st_some hs
    refine ⟨by simp [hp.1], ?_⟩
    intro c hc
    by_cases hci : c = i
    · subst hci; rw [List.getElem?_set_self hi]
    · rw [List.getElem?_set_ne (by omega)]; exact hp.2 c (by omega)
  obtain ⟨hN, hN0⟩ := hN
  have hNr : N = List.replicate g.ncell 0 := by
    apply List.ext_getElem?
    intro c
    by_cases hc : c < g.ncell
    · rw [hN0 c hc, List.getElem?_replicate, if_pos hc]
    · rw [List.getElem?_eq_none (by omega), List.getElem?_replicate, if_neg hc]
  obtain ⟨es, rfl, k2, k3⟩ := syncCounts_some hg hN h2
  obtain ⟨m2, dats, rfl, k4⟩ := reallocAllDats_some h3
  obtain ⟨q1, q2⟩ := countsOk_of_upd hg hN k2 k3 k4 h5
  have hh : g3.hNpart = N := by
    obtain ⟨d3, rfl, -, -⟩ := updDats_npart_some (N := g.hNpart)
      (g := { g with hNpart := N, dNpart := N, npartEs := es, npartLocal := N.sum, mem := m2,
                     dats := dats }) (hg.counted.congr k4) h5
    rfl
  simp only [Option.some.injEq] at h6
  subst h6
  exact ⟨q1.version _, ⟨q2.ncell, q2.pos, q2.rank, q2.cell, q2.hint⟩, by
    show g3.hNpart = _; rw [hh, hNr]⟩

/-- The result of `addDatCommon`: one more dat, with the counts of the group. -/
theorem addDatCommon_some {e : Env} {g g' : Group} {d : Dat} {N : List Nat}
    (hN : g.hNpart = N) (hl : N.length = g.ncell)
    (hd : d.hNpart.length = g.ncell) (hd' : d.dNpart.length = g.ncell)
    (h : addDatCommon e g d = some g') :
    ∃ m d', g' = { g with mem := m, dats := g.dats ++ [d'] } ∧ d'.sym = d.sym ∧
      d'.ncomp = d.ncomp ∧ d'.hNpart = N ∧ d'.dNpart = N := by
  unfold addDatCommon at h
  simp only [Option.bind_eq_some_iff] at h
  obtain ⟨r, h1, hN1, h2, dN, h3, r2, h4, h5⟩ := h
  have s1 := reallocDat_some h1
  simp only at s1
  have c1 := copyCounts_some h2 (by rw [s1.2.2.1]; exact hd)
  have c2 := copyCounts_some h3 (by rw [s1.2.2.2]; exact hd')
  have e1 : hN1 = N := by rw [c1.1, hN, List.take_of_length_le (by omega)]
  have e2 : dN = N := by rw [c2.1, e1, List.take_of_length_le (by omega)]
  have s2 : SameCounts { r.2 with hNpart := hN1, dNpart := dN } r2.2 := by
    split at h4
    · refine forLoop_partial (n := g.ncell) (P := fun _ t =>
        SameCounts { r.2 with hNpart := hN1, dNpart := dN } t.2) ?_ ⟨rfl, rfl, rfl, rfl⟩ h4
      intro i t t' _ ht hp
      exact hp.trans (setNrow_some ht)
    · simp only [Option.some.injEq] at h4
      subst h4
      exact ⟨rfl, rfl, rfl, rfl⟩
  simp only [Option.some.injEq] at h5
  exact ⟨r2.1, r2.2, h5.symm, by rw [s2.1]; exact s1.1, by rw [s2.2.1]; exact s1.2.1,
    by rw [s2.2.2.1]; exact e1, by rw [s2.2.2.2]; exact e2⟩

theorem dat?_none {g : Group} {s : Nat} (h : g.dat? s = none) : s ∉ g.dats.map (·.sym) := by
  intro hs
  obtain ⟨d, hd, rfl⟩ := List.mem_map.1 hs
  unfold Group.dat? at h
  rw [List.find?_eq_none] at h
  exact h d hd (by simp)

theorem addParticleDat_counts {e : Env} {g g' : Group} {sym ncomp : Nat} (hg : CountsOk g)
    (h : addParticleDat e g sym ncomp = some g') : CountsOk g' ∧ SameNames g g' := by
  unfold addParticleDat at h
  split at h
  · split at h
    · simp only [Option.some.injEq] at h
      subst h
      exact ⟨hg, SameNames.refl g⟩
    · simp at h
  · rename_i hnone
    obtain ⟨m, d', rfl, q1, q2, q3, q4⟩ := addDatCommon_some rfl hg.len (by simp [newDat])
      (by simp [newDat]) h
    refine ⟨⟨hg.len, hg.device, hg.es_len, hg.es, hg.total, ?_, ?_, ?_, ?_, ?_⟩,
      ⟨rfl, rfl, rfl, rfl, rfl⟩⟩
    · intro d hd
      rcases List.mem_append.1 hd with hd | hd
      · exact hg.host d hd
      · simp only [List.mem_singleton] at hd
        subst hd
        exact ⟨q3, q4⟩
    · simp only [List.map_append, List.map_cons, List.map_nil]
      rw [List.nodup_append]
      refine ⟨hg.nodup, by simp, ?_⟩
      intro a ha b hb
      simp only [List.mem_singleton] at hb
      rintro rfl
      rw [hb, q1] at ha
      exact dat?_none hnone ha
    · simp only [List.map_append, List.mem_append]; exact Or.inl hg.pos
    · simp only [List.map_append, List.mem_append]; exact Or.inl hg.rank
    · simp only [List.map_append, List.mem_append]; exact Or.inl hg.cell

theorem removeParticleDat_counts {g g' : Group} {sym : Nat} (hg : CountsOk g)
    (h : removeParticleDat g sym = some g') : CountsOk g' ∧ SameNames g g' := by
  unfold removeParticleDat at h
  split at h
  · rename_i hc
    obtain ⟨-, hp, hr, hcl⟩ := hc
    simp only [Option.some.injEq] at h
    subst h
    have hkeep : ∀ s, s ≠ sym → s ∈ g.dats.map (·.sym) →
        s ∈ (g.dats.filter (fun d => d.sym != sym)).map (·.sym) := by
      intro s hs hm
      obtain ⟨d, hd, rfl⟩ := List.mem_map.1 hm
      exact List.mem_map.2 ⟨d, List.mem_filter.2 ⟨hd, by simpa using hs⟩, rfl⟩
    refine ⟨⟨hg.len, hg.device, hg.es_len, hg.es, hg.total, ?_, ?_, ?_, ?_, ?_⟩,
      ⟨rfl, rfl, rfl, rfl, rfl⟩⟩
    · intro d hd; exact hg.host d (List.mem_filter.1 hd).1
    · exact hg.nodup.sublist (List.filter_sublist.map _)
    · exact hkeep _ (Ne.symm hp) hg.pos
    · exact hkeep _ (Ne.symm hr) hg.rank
    · exact hkeep _ (Ne.symm hcl) hg.cell
  · simp at h

theorem call_counts {e e' : Env} {g g' : Group} {x : GroupCall} (hg : CountsOk g)
    (h : g.call e e' x = some g') : CountsOk g' ∧ SameNames g g' := by
  cases x with
  | addSet ps => exact addParticleSet_counts hg h
  | addGroup src => exact addGroup_counts hg h
  | addSub src dats n cells layers => exact addSubGroup_counts hg h
  | remove n cells layers => exact removeParticles_counts hg h
  | removeHost n cells layers =>
    simp only [Group.call, removeParticlesHost] at h
    split at h
    · split at h
      · exact removeParticles_counts hg h
      · simp at h
    · simp only [Option.some.injEq] at h
      subst h
      exact ⟨hg, SameNames.refl g⟩
  | remover sym key => exact removerRemove_counts hg h
  | cellMove => exact cellMove_counts hg h
  | addDat sym ncomp => exact addParticleDat_counts hg h
  | removeDat sym => exact removeParticleDat_counts hg h
  | clear => exact ⟨(clearGroup_counts hg h).1, (clearGroup_counts hg h).2.1⟩

theorem calls_counts {env : Nat → Env} {xs : List GroupCall} {i : Nat} {g g' : Group}
    (hg : CountsOk g) (h : g.calls env i xs = some g') : CountsOk g' ∧ SameNames g g' := by
  induction xs generalizing g i with
  | nil =>
    simp only [Group.calls, Option.some.injEq] at h
    subst h
    exact ⟨hg, SameNames.refl g⟩
  | cons x xs ih =>
    simp only [Group.calls, Option.bind_eq_some_iff] at h
    obtain ⟨g1, h1, h2⟩ := h
    obtain ⟨k1, k2⟩ := call_counts hg h1
    obtain ⟨k3, k4⟩ := ih k1 h2
    exact ⟨k3, k2.trans k4⟩

end NP
