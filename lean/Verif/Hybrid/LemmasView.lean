import Verif.Hybrid.LemmasMesh
import Verif.Move.PropsLocal
import Verif.Loop.Props

/-! # Kernels that write MPI ranks -/

set_option autoImplicit false

namespace NP

open Spec

/-- `g'` is `g` with the MPI ranks `F c k` for the particle in row `k` of cell `c`. -/
structure RanksSet (g g' : Group) (F : Nat → Nat → Int × Int) : Prop where
  eq : g' = { g with mem := g'.mem }
  fst : ∀ c k, c < g.ncell → k < count g c → g'.mem ⟨g.rankSym, c, 0, k⟩ = some (F c k).1
  snd : ∀ c k, c < g.ncell → k < count g c → g'.mem ⟨g.rankSym, c, 1, k⟩ = some (F c k).2
  other : ∀ x : Key, ¬ (x.sym = g.rankSym ∧ x.comp < 2) → g'.mem x = g.mem x
  alloc : ∀ x : Key, (g.mem x).isSome = true → (g'.mem x).isSome = true

theorem RanksSet.ncell {g g' : Group} {F : Nat → Nat → Int × Int} (h : RanksSet g g' F) :
    g'.ncell = g.ncell := by rw [h.eq]

theorem RanksSet.count {g g' : Group} {F : Nat → Nat → Int × Int} (h : RanksSet g g' F) (c : Nat) :
    count g' c = count g c := by rw [h.eq]; rfl

theorem RanksSet.dats {g g' : Group} {F : Nat → Nat → Int × Int} (h : RanksSet g g' F) :
    g'.dats = g.dats := by rw [h.eq]

theorem RanksSet.rankSym {g g' : Group} {F : Nat → Nat → Int × Int} (h : RanksSet g g' F) :
    g'.rankSym = g.rankSym := by rw [h.eq]

theorem RanksSet.posSym {g g' : Group} {F : Nat → Nat → Int × Int} (h : RanksSet g g' F) :
    g'.posSym = g.posSym := by rw [h.eq]

theorem RanksSet.cellSym {g g' : Group} {F : Nat → Nat → Int × Int} (h : RanksSet g g' F) :
    g'.cellSym = g.cellSym := by rw [h.eq]

theorem RanksSet.hNpart {g g' : Group} {F : Nat → Nat → Int × Int} (h : RanksSet g g' F) :
    g'.hNpart = g.hNpart := by rw [h.eq]

theorem RanksSet.version {g g' : Group} {F : Nat → Nat → Int × Int} (h : RanksSet g g' F) :
    g'.version = g.version := by rw [h.eq]

theorem RanksSet.hint {g g' : Group} {F : Nat → Nat → Int × Int} (h : RanksSet g g' F) :
    g'.hint = g.hint := by rw [h.eq]

theorem RanksSet.shape {g g' : Group} {F : Nat → Nat → Int × Int} (h : RanksSet g g' F) :
    SameShape g g' :=
  ⟨h.ncell, by rw [h.dats], h.posSym, h.rankSym, h.cellSym, h.hint⟩

theorem RanksSet.trans {g g' g'' : Group} {F F' : Nat → Nat → Int × Int} (h : RanksSet g g' F)
    (h' : RanksSet g' g'' F') : RanksSet g g'' F' := by
  have e1 := h.rankSym
  have e2 := h.ncell
  refine ⟨?_, ?_, ?_, ?_, fun x hx => h'.alloc x (h.alloc x hx)⟩
  · have := h'.eq
    rw [h.eq] at this
    exact this
  · intro c k hc hk
    have := h'.fst c k (by omega) (by rw [h.count]; exact hk)
    rwa [e1] at this
  · intro c k hc hk
    have := h'.snd c k (by omega) (by rw [h.count]; exact hk)
    rwa [e1] at this
  · intro x hx
    rw [h'.other x (by rw [e1]; exact hx), h.other x hx]

theorem RanksSet.consistent {g g' : Group} {F : Nat → Nat → Int × Int} (h : RanksSet g g' F)
    (hg : Consistent g) : Consistent g' := by
  have hm := h.alloc
  generalize hm' : g'.mem = mem at hm
  have he := h.eq
  rw [hm'] at he
  subst he
  refine ⟨hg.len, hg.device, hg.es_len, hg.es, hg.total, hg.nodup, ?_, hg.pos, hg.rank, hg.cell⟩
  intro d hd
  have h1 := hg.dats d hd
  exact ⟨h1.mem.congr_isSome hm, h1.host, h1.device, h1.rows, h1.exact⟩

theorem RanksSet.position {g g' : Group} {F : Nat → Nat → Int × Int} (h : RanksSet g g' F)
    (hne : g.rankSym ≠ g.posSym) (dec : Int → ℚ) (ndim c k : Nat) :
    position dec ndim g' c k = position dec ndim g c k := by
  unfold Spec.position
  refine mapM_congr_mem fun d _ => ?_
  rw [h.posSym, h.other _ (fun hc => hne hc.1.symm)]

theorem RanksSet.cellId {g g' : Group} {F : Nat → Nat → Int × Int} (h : RanksSet g g' F)
    (hne : g.rankSym ≠ g.cellSym) (c k : Nat) : cellId g' c k = cellId g c k := by
  unfold Spec.cellId
  rw [h.cellSym, h.other _ (fun hc => hne hc.1.symm)]

theorem RanksSet.valuesBut {g g' : Group} {F : Nat → Nat → Int × Int} (h : RanksSet g g' F)
    (c k : Nat) : valuesBut (isRank g') g' c k = valuesBut (isRank g) g c k := by
  have : isRank g' = isRank g := by unfold isRank; rw [h.rankSym]
  unfold Spec.valuesBut
  rw [this, h.dats]
  apply List.map_congr_left
  intro sj hsj
  rw [List.mem_filter] at hsj
  apply h.other
  rintro ⟨h1, h2⟩
  have h1 : sj.1 = g.rankSym := h1
  have h2 : sj.2 < 2 := h2
  simp [isRank, h1, h2] at hsj

theorem particlesOf_congr {g g' : Group} (h1 : g'.ncell = g.ncell) (h2 : g'.hNpart = g.hNpart) :
    particlesOf g' = particlesOf g := by
  unfold particlesOf count
  rw [h1, h2]

theorem RanksSet.allBut {g g' : Group} {F : Nat → Nat → Int × Int} (h : RanksSet g g' F) :
    allBut isRank g' = allBut isRank g := by
  unfold Spec.allBut
  rw [particlesOf_congr h.ncell h.hNpart]
  exact List.map_congr_left fun ck _ => h.valuesBut ck.1 ck.2

/-! ## The view -/

/-- The particles of a view. -/
def IsView (g : Group) (P : Nat → Nat → MapParticle) (cells : List (List MapParticle)) : Prop :=
  ∀ c k, rd2 cells (c, k) = if c < g.ncell ∧ k < count g c then some (P c k) else none

theorem isView_mem {g : Group} {P : Nat → Nat → MapParticle} {cells : List (List MapParticle)}
    (h : IsView g P cells) {it : Nat × Nat} :
    it ∈ particleItems cells ↔ it.1 < g.ncell ∧ it.2 < count g it.1 := by
  obtain ⟨c, k⟩ := it
  rw [mem_particleItems, h c k]
  by_cases hv : c < g.ncell ∧ k < count g c
  · rw [if_pos hv]; exact ⟨fun _ => hv, fun _ => ⟨_, rfl⟩⟩
  · rw [if_neg hv]; exact ⟨by rintro ⟨_, h⟩; simp at h, fun h => absurd h hv⟩

theorem mapView_spec {dec : Int → ℚ} {ndim : Nat} {g : Group} (hl : g.hNpart.length = g.ncell)
    {P : Nat → Nat → MapParticle}
    (hP : ∀ c k, c < g.ncell → k < count g c → mapPart dec ndim g c k = some (P c k)) :
    ∃ cells, mapView dec ndim g g.hNpart = some cells ∧ IsView g P cells := by
  refine ⟨(List.range g.ncell).map fun c => (List.range (count g c)).map (P c), ?_, ?_⟩
  · unfold mapView
    apply mapM_of_forall
    intro c hc
    rw [List.mem_range] at hc
    simp only [rd]
    have : g.hNpart[c]? = some (count g c) := by
      unfold count
      rw [List.getD_eq_getElem?_getD, List.getElem?_eq_getElem (by omega)]
      rfl
    rw [this, Option.bind_some]
    apply mapM_of_forall
    intro k hk
    rw [List.mem_range] at hk
    exact hP c k hc hk
  · intro c k
    simp only [rd2, rd, List.getElem?_map]
    by_cases hc : c < g.ncell
    · rw [List.getElem?_range hc]
      simp only [Option.map_some, Option.bind_some, List.getElem?_map]
      by_cases hk : k < count g c
      · rw [List.getElem?_range hk, if_pos ⟨hc, hk⟩]; rfl
      · rw [List.getElem?_eq_none (by simpa using hk), if_neg (by tauto)]; rfl
    · rw [List.getElem?_eq_none (by simpa using hc), if_neg (by tauto)]; rfl

theorem rank_isSome {g : Group} (hg : Consistent g)
    (hr : ∃ d ∈ g.dats, d.sym = g.rankSym ∧ 2 ≤ d.ncomp) {c k j : Nat} (hc : c < g.ncell)
    (hk : k < count g c) (hj : j < 2) : (g.mem ⟨g.rankSym, c, j, k⟩).isSome = true := by
  obtain ⟨d, hd, h1, h2⟩ := hr
  exact hg.datsOk.isSome (sj := (g.rankSym, j)) (mem_flatComps.2 ⟨d, hd, h1, by
    show j < d.ncomp; omega⟩) (get_getD hg.len hc) hk

theorem position_isSome {g : Group} (hg : Consistent g) (dec : Int → ℚ) {ndim : Nat}
    (hp : ∃ d ∈ g.dats, d.sym = g.posSym ∧ ndim ≤ d.ncomp) {c k : Nat} (hc : c < g.ncell)
    (hk : k < count g c) : ∃ p, position dec ndim g c k = some p := by
  obtain ⟨d, hd, h1, h2⟩ := hp
  refine ⟨(List.range ndim).map fun j => dec ((g.mem ⟨g.posSym, c, j, k⟩).getD 0), ?_⟩
  apply mapM_of_forall
  intro j hj
  rw [List.mem_range] at hj
  obtain ⟨v, hv⟩ := Option.isSome_iff_exists.1 (hg.datsOk.isSome (sj := (g.posSym, j))
    (mem_flatComps.2 ⟨d, hd, h1, by show j < d.ncomp; omega⟩) (get_getD hg.len hc) hk)
  have hv : g.mem ⟨g.posSym, c, j, k⟩ = some v := hv
  rw [hv]
  rfl

theorem mapM_length_eq {α β : Type} {f : α → Option β} {l : List α} {l' : List β}
    (h : l.mapM f = some l') : l'.length = l.length := by
  induction l generalizing l' with
  | nil => simp at h; subst h; rfl
  | cons a l ih =>
    rw [List.mapM_cons] at h
    cases ha : f a with
    | none => rw [ha] at h; simp at h
    | some b =>
      cases hl : l.mapM f with
      | none => rw [ha, hl] at h; simp at h
      | some l'' =>
        rw [ha, hl] at h
        simp at h
        subst h
        simp [ih hl]

theorem position_length {dec : Int → ℚ} {ndim : Nat} {g : Group} {c k : Nat} {p : List ℚ}
    (h : position dec ndim g c k = some p) : p.length = ndim := by
  have := mapM_length_eq h
  simpa using this

theorem mapPart_eq {dec : Int → ℚ} {ndim : Nat} {g : Group} {c k : Nat} {p : List ℚ} {a b : Int}
    (h : position dec ndim g c k = some p) (ha : g.mem ⟨g.rankSym, c, 0, k⟩ = some a)
    (hb : g.mem ⟨g.rankSym, c, 1, k⟩ = some b) : mapPart dec ndim g c k = some ⟨p, a, b⟩ := by
  unfold mapPart
  unfold position at h
  rw [h, Option.bind_some, ha, Option.bind_some, hb]
  rfl

theorem mapStore_spec {g : Group} (hg : Consistent g)
    (hr : ∃ d ∈ g.dats, d.sym = g.rankSym ∧ 2 ≤ d.ncomp) {P : Nat → Nat → MapParticle}
    {cells : List (List MapParticle)} (hc : IsView g P cells) :
    ∃ g', mapStore g cells = some g' ∧ RanksSet g g' fun c k => ((P c k).rank0, (P c k).rank1) := by
  obtain ⟨m, h1, h2⟩ := runItems_invariant (items := particleItems cells) (s := g.mem)
    (step := fun it m => (rd2 cells it).bind fun p => (mst m ⟨g.rankSym, it.1, 0, it.2⟩ p.rank0).bind
      fun m => mst m ⟨g.rankSym, it.1, 1, it.2⟩ p.rank1)
    (P := fun done m => ∀ x : Key, m x =
      if x.sym = g.rankSym ∧ x.comp = 0 ∧ (x.cell, x.row) ∈ done then some (P x.cell x.row).rank0
      else if x.sym = g.rankSym ∧ x.comp = 1 ∧ (x.cell, x.row) ∈ done then
        some (P x.cell x.row).rank1
      else g.mem x)
    (by
      rintro pre ⟨c, k⟩ post m hitems hm
      have hmem : (c, k) ∈ particleItems cells := by rw [hitems]; simp
      have hv := (isView_mem hc).1 hmem
      have hs : ∀ x : Key, (g.mem x).isSome = true → (m x).isSome = true := by
        intro x hx
        rw [hm x]
        split
        · rfl
        · split
          · rfl
          · exact hx
      have a0 := hs _ (rank_isSome hg hr (j := 0) hv.1 hv.2 (by omega))
      have a1 := hs _ (rank_isSome hg hr (j := 1) hv.1 hv.2 (by omega))
      refine ⟨fun x => if x = ⟨g.rankSym, c, 1, k⟩ then some (P c k).rank1
        else if x = ⟨g.rankSym, c, 0, k⟩ then some (P c k).rank0 else m x, ?_, ?_⟩
      · rw [hc c k, if_pos hv, Option.bind_some, mst_eq_some a0, Option.bind_some,
          mst_eq_some (by
            dsimp only
            rw [if_neg (by simp)]
            exact a1)]
      · rintro ⟨s, c', j, k'⟩
        dsimp only
        rw [hm]
        simp only [Key.mk.injEq, List.mem_append, List.mem_singleton, Prod.mk.injEq]
        by_cases e : s = g.rankSym ∧ c' = c ∧ k' = k
        · obtain ⟨rfl, rfl, rfl⟩ := e
          by_cases j1 : j = 1
          · subst j1; simp
          · by_cases j0 : j = 0
            · subst j0; simp
            · simp [j0, j1]
        · rw [if_neg (by tauto), if_neg (by tauto)]
          have q : (s = g.rankSym ∧ j = 0 ∧ ((c', k') ∈ pre ∨ c' = c ∧ k' = k)) ↔
              (s = g.rankSym ∧ j = 0 ∧ (c', k') ∈ pre) := by tauto
          have q' : (s = g.rankSym ∧ j = 1 ∧ ((c', k') ∈ pre ∨ c' = c ∧ k' = k)) ↔
              (s = g.rankSym ∧ j = 1 ∧ (c', k') ∈ pre) := by tauto
          rw [if_congr q rfl (if_congr q' rfl rfl)])
    (by intro x; simp)
  refine ⟨{ g with mem := m }, by unfold mapStore; rw [h1]; rfl, rfl, ?_, ?_, ?_, ?_⟩
  · intro c k hck hk
    show m _ = _
    rw [h2, if_pos ⟨rfl, rfl, (isView_mem hc).2 ⟨hck, hk⟩⟩]
  · intro c k hck hk
    show m _ = _
    rw [h2, if_neg (by simp), if_pos ⟨rfl, rfl, (isView_mem hc).2 ⟨hck, hk⟩⟩]
  · intro x hx
    show m x = _
    rw [h2, if_neg (fun h => hx ⟨h.1, by omega⟩), if_neg (fun h => hx ⟨h.1, by omega⟩)]
  · intro x hx
    show (m x).isSome = true
    rw [h2]
    split
    · rfl
    · split
      · rfl
      · exact hx

theorem onMapView_spec {dec : Int → ℚ} {ndim : Nat} {g : Group} (hg : Consistent g)
    (hr : ∃ d ∈ g.dats, d.sym = g.rankSym ∧ 2 ≤ d.ncomp) {sym : Nat}
    (hsym : sym ∈ g.dats.map (·.sym)) {P : Nat → Nat → MapParticle}
    (hP : ∀ c k, c < g.ncell → k < count g c → mapPart dec ndim g c k = some (P c k))
    {f : List Nat → List (List MapParticle) → Option (List (List MapParticle))}
    {P' : Nat → Nat → MapParticle}
    (hf : ∀ cells, IsView g P cells → ∃ cells', f g.hNpart cells = some cells' ∧
      IsView g P' cells') :
    ∃ g', onMapView dec ndim sym f g = some g' ∧
      RanksSet g g' fun c k => ((P' c k).rank0, (P' c k).rank1) := by
  obtain ⟨d, hd, h1, -⟩ := dat?_of_mem_syms hsym
  obtain ⟨cells, h2, h3⟩ := mapView_spec hg.len hP
  obtain ⟨cells', h4, h5⟩ := hf cells h3
  obtain ⟨g', h6, h7⟩ := mapStore_spec hg hr h5
  refine ⟨g', ?_, h7⟩
  unfold onMapView
  rw [h1, Option.bind_some, (hg.dats d hd).host, h2, Option.bind_some, h4, Option.bind_some, h6]

end NP
