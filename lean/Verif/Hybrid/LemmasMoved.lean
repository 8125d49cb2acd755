import Verif.Hybrid.LemmasMap

/-! # What a move keeps of a particle -/

set_option autoImplicit false

namespace NP

open Spec

/-- The particle in row `k` of cell `c` of `g` and the one in row `k'` of cell `c'` of `g'` have the
same values, and the groups the same properties. -/
structure SameParticle (g : Group) (c k : Nat) (g' : Group) (c' k' : Nat) : Prop where
  comps : flatComps g'.dats = flatComps g.dats
  pos : g'.posSym = g.posSym
  rank : g'.rankSym = g.rankSym
  cell : g'.cellSym = g.cellSym
  vals : particle g' c' k' = particle g c k

theorem SameParticle.mem {g g' : Group} {c k c' k' : Nat} (h : SameParticle g c k g' c' k')
    {s j : Nat} (hsj : (s, j) ∈ flatComps g.dats) : g'.mem ⟨s, c', j, k'⟩ = g.mem ⟨s, c, j, k⟩ := by
  have := h.vals
  unfold particle at this
  rw [h.comps] at this
  exact List.map_inj_left.1 this (s, j) hsj

theorem SameParticle.position {g g' : Group} {c k c' k' : Nat} (h : SameParticle g c k g' c' k')
    (dec : Int → ℚ) {ndim : Nat} (hp : ∃ d ∈ g.dats, d.sym = g.posSym ∧ ndim ≤ d.ncomp) :
    position dec ndim g' c' k' = position dec ndim g c k := by
  obtain ⟨d, hd, h1, h2⟩ := hp
  unfold Spec.position
  refine mapM_congr_mem fun j hj => ?_
  rw [List.mem_range] at hj
  rw [h.pos, h.mem (mem_flatComps.2 ⟨d, hd, h1, by show j < d.ncomp; omega⟩)]

theorem SameParticle.cellId {g g' : Group} {c k c' k' : Nat} (h : SameParticle g c k g' c' k')
    (hg : Consistent g) : cellId g' c' k' = cellId g c k := by
  obtain ⟨d, hd, h1, h2⟩ := hg.cell
  unfold Spec.cellId
  rw [h.cell, h.mem (mem_flatComps.2 ⟨d, hd, h1, h2⟩)]

theorem SameParticle.rankMem {g g' : Group} {c k c' k' j : Nat} (h : SameParticle g c k g' c' k')
    (hr : ∃ d ∈ g.dats, d.sym = g.rankSym ∧ 2 ≤ d.ncomp) (hj : j < 2) :
    g'.mem ⟨g'.rankSym, c', j, k'⟩ = g.mem ⟨g.rankSym, c, j, k⟩ := by
  obtain ⟨d, hd, h1, h2⟩ := hr
  rw [h.rank, h.mem (mem_flatComps.2 ⟨d, hd, h1, by show j < d.ncomp; omega⟩)]

theorem mem_contents {g : Group} {c k : Nat} (hk : k < count g c) :
    particle g c k ∈ contents g c :=
  List.mem_map.2 ⟨k, List.mem_range.2 hk, rfl⟩

/-- Where a particle was before a move. -/
theorem moved_source {n comp : Nat} {g : Nat → Group} {out : List Group} (h : Moved n comp g out)
    (hcomps : ∀ r s, r < n → s < n → flatComps (g r).dats = flatComps (g s).dats)
    (hnames : ∀ r s, r < n → s < n → (g r).posSym = (g s).posSym ∧ (g r).rankSym = (g s).rankSym ∧
      (g r).cellSym = (g s).cellSym)
    {r : Nat} (hr : r < n) {g' : Group} (hg' : out[r]? = some g') {c k : Nat} (hc : c < g'.ncell)
    (hk : k < count g' c) :
    ∃ s c0 k0, s < n ∧ c0 < (g s).ncell ∧ k0 < count (g s) c0 ∧
      SameParticle (g s) c0 k0 g' c k ∧
      (s = r ∧ c0 = c ∧ destination n s comp (g s) c0 k0 = none ∨
        c = 0 ∧ destination n s comp (g s) c0 k0 = some r) := by
  obtain ⟨g'', h1, h2, h3, h4, h5⟩ := h.2 r hr
  rw [hg'] at h1
  obtain rfl := Option.some.inj h1
  rw [h3.ncell] at hc
  have hm := ((h5 c hc).mem_iff).1 (mem_contents hk)
  rcases List.mem_append.1 hm with hm | hm
  · obtain ⟨k0, hk0, hv⟩ := List.mem_map.1 hm
    rw [List.mem_filter, List.mem_range] at hk0
    refine ⟨r, c, k0, hr, hc, hk0.1, ⟨h3.comps, h3.pos, h3.rank, h3.cell, hv.symm⟩,
      .inl ⟨rfl, rfl, ?_⟩⟩
    simpa using hk0.2
  · by_cases hc0 : c = 0
    · subst hc0
      rw [if_pos rfl] at hm
      obtain ⟨s, hs, hm⟩ := List.mem_flatMap.1 hm
      rw [List.mem_range] at hs
      obtain ⟨⟨c0, k0⟩, hck, hv⟩ := List.mem_map.1 hm
      rw [List.mem_filter, mem_particlesOf] at hck
      obtain ⟨n1, n2, n3⟩ := hnames r s hr hs
      refine ⟨s, c0, k0, hs, hck.1.1, hck.1.2, ⟨h3.comps.trans (hcomps r s hr hs), h3.pos.trans n1,
        h3.rank.trans n2, h3.cell.trans n3, hv.symm⟩, .inr ⟨rfl, ?_⟩⟩
      simpa using hck.2
    · rw [if_neg hc0] at hm; simp at hm

/-! ## Conservation -/

/-- The values of a particle that `q` does not select. -/
def stripVals (F : List (Nat × Nat)) (q : Nat × Nat → Bool) (vs : List (Option Int)) :
    List (Option Int) := ((F.zip vs).filter fun x => !q x.1).map fun x => x.2

theorem stripVals_particle (q : Nat × Nat → Bool) (g : Group) (c k : Nat) :
    stripVals (flatComps g.dats) q (particle g c k) = valuesBut q g c k := by
  unfold stripVals valuesBut particle
  rw [zip_map_self, List.filter_map, List.map_map]
  rfl

theorem allParticles_eq (g : Group) :
    allParticles g = (particlesOf g).map fun p => particle g p.1 p.2 := by
  unfold allParticles particlesOf contents
  rw [List.map_flatMap]
  simp [List.map_map, Function.comp_def]

theorem allBut_eq (q : Group → Nat × Nat → Bool) (g : Group) :
    allBut q g = (allParticles g).map (stripVals (flatComps g.dats) (q g)) := by
  unfold allBut
  rw [allParticles_eq, List.map_map]
  apply List.map_congr_left
  intro ck _
  exact (stripVals_particle _ _ _ _).symm

theorem moved_allBut {n comp : Nat} {g : Nat → Group} {out : List Group} (h : Moved n comp g out)
    (hcells : ∀ r, r < n → 0 < (g r).ncell)
    (hcomps : ∀ r s, r < n → s < n → flatComps (g r).dats = flatComps (g s).dats)
    (hnames : ∀ r s, r < n → s < n → (g r).posSym = (g s).posSym ∧ (g r).rankSym = (g s).rankSym ∧
      (g r).cellSym = (g s).cellSym) :
    (out.flatMap (allBut isRank)).Perm ((List.range n).flatMap fun r => allBut isRank (g r)) := by
  rcases Nat.eq_zero_or_pos n with rfl | hn
  · have : out = [] := List.length_eq_zero_iff.1 h.1
    subst this
    simp
  have hp := (moved_conserves hcells h).map (stripVals (flatComps (g 0).dats) (isRank (g 0)))
  rw [List.map_flatMap, List.map_flatMap] at hp
  have e1 : out.flatMap (allBut isRank) =
      out.flatMap fun x => (allParticles x).map (stripVals (flatComps (g 0).dats) (isRank (g 0))) := by
    apply List.flatMap_congr
    intro x hx
    obtain ⟨r, hr⟩ := List.mem_iff_getElem?.1 hx
    have hrn : r < n := by rw [← h.1]; exact (List.getElem?_eq_some_iff.1 hr).1
    obtain ⟨g'', h1, h2, h3, -⟩ := h.2 r hrn
    rw [hr] at h1
    obtain rfl := Option.some.inj h1
    rw [allBut_eq, h3.comps, hcomps r 0 hrn hn]
    have : isRank x = isRank (g 0) := by
      unfold isRank; rw [h3.rank, (hnames r 0 hrn hn).2.1]
    rw [this]
  have e2 : ((List.range n).flatMap fun r => allBut isRank (g r)) = (List.range n).flatMap fun r =>
      (allParticles (g r)).map (stripVals (flatComps (g 0).dats) (isRank (g 0))) := by
    apply List.flatMap_congr
    intro r hr
    rw [List.mem_range] at hr
    rw [allBut_eq, hcomps r 0 hr hn]
    have : isRank (g r) = isRank (g 0) := by unfold isRank; rw [(hnames r 0 hr hn).2.1]
    rw [this]
  rw [e1, e2]
  exact hp

theorem length_allBut (q : Group → Nat × Nat → Bool) {g : Group} (hl : g.hNpart.length = g.ncell) :
    (allBut q g).length = g.hNpart.sum := by
  unfold allBut
  rw [List.length_map, length_particlesOf hl]

theorem smallCounts_of_sum {g : Group} (h : g.hNpart.sum < 2 ^ 31) : SmallCounts g :=
  fun _ hn => lt_of_le_of_lt (List.le_sum_of_mem hn) h

end NP
