import Verif.Hybrid.LemmasView

/-! # The mapping stages of `hybrid_move` -/

set_option autoImplicit false

namespace NP

open Spec

/-- A loop which changes each particle of the given items. -/
theorem particleLoop_spec {g : Group} {P P' : Nat → Nat → MapParticle}
    {step : MapParticle → Option MapParticle} {items : List (Nat × Nat)} (hnd : items.Nodup)
    (hval : ∀ c k, (c, k) ∈ items → c < g.ncell ∧ k < count g c)
    (hin : ∀ c k, (c, k) ∈ items → step (P c k) = some (P' c k))
    (hout : ∀ c k, c < g.ncell → k < count g c → (c, k) ∉ items → P' c k = P c k)
    {cells : List (List MapParticle)} (hv : IsView g P cells) :
    ∃ cells', runItems (fun it cells => (rd2 cells it).bind fun p => (step p).bind fun p =>
      st2 cells it p) items cells = some cells' ∧ IsView g P' cells' := by
  obtain ⟨cells', h1, h2⟩ := runItems_invariant (items := items) (s := cells)
    (step := fun it cells => (rd2 cells it).bind fun p => (step p).bind fun p => st2 cells it p)
    (P := fun done cells => ∀ c k, rd2 cells (c, k) =
      if c < g.ncell ∧ k < count g c then some (if (c, k) ∈ done then P' c k else P c k) else none)
    (by
      rintro pre ⟨c, k⟩ post cells hit h
      have hm : (c, k) ∈ items := by rw [hit]; simp
      have hck := hval c k hm
      have hnot : (c, k) ∉ pre := by
        rw [hit] at hnd
        intro hp
        exact (List.nodup_append.1 hnd).2.2 _ hp _ List.mem_cons_self rfl
      have hr : rd2 cells (c, k) = some (P c k) := by rw [h, if_pos hck, if_neg hnot]
      obtain ⟨cells', s1, s2, s3, -⟩ := st2_spec (v := P' c k) hr
      refine ⟨cells', ?_, ?_⟩
      · rw [hr, Option.bind_some, hin c k hm, Option.bind_some, s1]
      · intro c' k'
        by_cases he : (c', k') = (c, k)
        · obtain ⟨rfl, rfl⟩ := Prod.mk.inj he
          rw [s2, if_pos hck, if_pos (by simp)]
        · rw [s3 _ he, h]
          have : (c', k') ∈ pre ++ [(c, k)] ↔ (c', k') ∈ pre := by
            rw [List.mem_append, List.mem_singleton]
            tauto
          rw [if_congr this rfl rfl])
    (by intro c k; simpa using hv c k)
  refine ⟨cells', h1, ?_⟩
  intro c k
  rw [h2 c k]
  by_cases hck : c < g.ncell ∧ k < count g c
  · rw [if_pos hck, if_pos hck]
    by_cases hm : (c, k) ∈ items
    · rw [if_pos hm]
    · rw [if_neg hm, hout c k hck.1 hck.2 hm]
  · rw [if_neg hck, if_neg hck]

theorem launchOk_of {e : Env} (hE : EnvOk e) {g : Group} (hs : SmallCounts g) :
    LaunchOk e.loop g.hNpart false 0 :=
  ⟨hE.localSize_pos, hE.localSize_int, hE.nbin_pos, hs, by simp⟩

/-- The local mapper in all cells, or in one. -/
theorem localMapLoop_spec {m : CartMesh} {extent : ℚ} {lm : LocalMapper} {e : Env} (hE : EnvOk e)
    (order : Sched) {g : Group} (hg : Consistent g) (hs : SmallCounts g) {cell : Option Int}
    (hcell : CellArgsOk g.ncell cell none) {P P' : Nat → Nat → MapParticle}
    (hin : ∀ c k, c < g.ncell → k < count g c → CellRequested cell none c →
      localMapStep m extent lm (P c k) = some (P' c k))
    (hout : ∀ c k, c < g.ncell → k < count g c → ¬ CellRequested cell none c → P' c k = P c k)
    {cells : List (List MapParticle)} (hv : IsView g P cells) :
    ∃ cells', localMapLoop m extent lm e.loop order cell g.hNpart cells = some cells' ∧
      IsView g P' cells' := by
  obtain ⟨vis, h1, h2, h3⟩ := C07_each_particle_once (launchOk_of hE hs) (cs := cell) (ce := none)
    (by rw [hg.len]; exact hcell)
  have hmem : ∀ c k, (c, k) ∈ order.order vis ↔
      CellRequested cell none c ∧ c < g.ncell ∧ k < count g c := by
    intro c k
    rw [(order.perm vis).mem_iff, h3]
    exact and_congr Iff.rfl (isParticle_iff_lt hg.len)
  obtain ⟨cells', h4, h5⟩ := particleLoop_spec (step := localMapStep m extent lm) (P := P) (P' := P')
    (g := g) (items := order.order vis) ((order.perm vis).nodup_iff.2 h2)
    (fun c k h => ((hmem c k).1 h).2)
    (fun c k h => hin c k ((hmem c k).1 h).2.1 ((hmem c k).1 h).2.2 ((hmem c k).1 h).1)
    (fun c k h1 h2 h3 => hout c k h1 h2 fun h => h3 ((hmem c k).2 ⟨h, h1, h2⟩)) hv
  refine ⟨cells', ?_, h5⟩
  unfold localMapLoop
  rw [h1, Option.bind_some]
  exact h4

/-- What the local mapper of rank `r` does with a particle. -/
def MapperOk (m : CartMesh) (extent : ℚ) (r : Nat) (lm : LocalMapper) : Prop :=
  ∀ p : MapParticle, m.mh.dims.length ≤ p.pos.length →
    (0 ≤ p.rank1 → localMapStep m extent lm p = some p) ∧
    (p.rank1 < 0 → ∃ t r', NearestCell m extent t p.pos ∧ m.owningRank t = some r' ∧
      (InHalo m r t → localMapStep m extent lm p = some ⟨p.pos, p.rank0, (r' : Int)⟩) ∧
      (¬ InHalo m r t → localMapStep m extent lm p = some ⟨p.pos, p.rank0, -1⟩))

open Classical in
theorem hybridMap_spec {m : CartMesh} (hv : ValidCartMesh m) {extent : ℚ} (he : 0 < extent)
    {dec : Int → ℚ} {map : List Int} (hmap : OwnerMap m map) {r : Nat}
    {lm : LocalMapper} (hlm : MapperOk m extent r lm) {e : HybridEnv} (hE : HybridEnvOk e)
    {g : Group} (hg : HybridGroupOk m extent dec g) (hs : SmallCounts g) :
    ∃ g' F, hybridMap m extent dec map lm e g = some g' ∧ RanksSet g g' F ∧
      ∀ c k, c < g.ncell → k < count g c → ∃ p t r',
        position dec m.mh.dims.length g c k = some p ∧ NearestCell m extent t p ∧
        m.owningRank t = some r' ∧ (InHalo m r t → F c k = (-1, (r' : Int))) ∧
        (¬ InHalo m r t → F c k = ((r' : Int), -1)) := by
  have hgc := hg.consistent
  -- positions and cells
  have hex : ∀ c k, ∃ p t r', c < g.ncell → k < count g c →
      position dec m.mh.dims.length g c k = some p ∧ InsideMesh m extent p ∧
      p.length = m.mh.dims.length ∧ NearestCell m extent t p ∧ m.owningRank t = some r' ∧
      (InHalo m r t → localMapStep m extent lm ⟨p, -1, -1⟩ = some ⟨p, -1, (r' : Int)⟩) ∧
      (¬ InHalo m r t → localMapStep m extent lm ⟨p, -1, -1⟩ = some ⟨p, -1, -1⟩) := by
    intro c k
    by_cases hck : c < g.ncell ∧ k < count g c
    · obtain ⟨p, h1, h2⟩ := hg.inside c k hck.1 hck.2
      have hl := position_length h1
      obtain ⟨t, r', a1, a2, a3, a4⟩ := (hlm ⟨p, -1, -1⟩ (by dsimp only; omega)).2
        (by dsimp only; omega)
      exact ⟨p, t, r', fun _ _ => ⟨h1, h2, hl, a1, a2, a3, a4⟩⟩
    · exact ⟨[], [], 0, fun h1 h2 => absurd ⟨h1, h2⟩ hck⟩
  choose pos T R hex using hex
  let L : Nat → Nat → Int := fun c k => if InHalo m r (T c k) then (R c k : Int) else -1
  -- reset
  have hP0 : ∀ c k, c < g.ncell → k < count g c → mapPart dec m.mh.dims.length g c k =
      some ⟨pos c k, (g.mem ⟨g.rankSym, c, 0, k⟩).getD 0, (g.mem ⟨g.rankSym, c, 1, k⟩).getD 0⟩ := by
    intro c k hc hk
    obtain ⟨v0, h0⟩ := Option.isSome_iff_exists.1 (rank_isSome hgc hg.rank hc hk (j := 0) (by omega))
    obtain ⟨v1, h1⟩ := Option.isSome_iff_exists.1 (rank_isSome hgc hg.rank hc hk (j := 1) (by omega))
    rw [mapPart_eq (hex c k hc hk).1 h0 h1, h0, h1]
    rfl
  obtain ⟨ga, a1, a2⟩ := onMapView_spec (dec := dec) (sym := g.rankSym) hgc hg.rank hgc.rank hP0
    (f := fun _ cells => resetMpiRanks e.reset cells) (P' := fun c k => ⟨pos c k, -1, -1⟩)
    (by
      intro cells hcells
      obtain ⟨cells', h1, -, h2⟩ := C36_reset e.reset cells
      refine ⟨cells', h1, ?_⟩
      intro c k
      rw [h2, hcells c k]
      by_cases hck : c < g.ncell ∧ k < count g c
      · rw [if_pos hck, if_pos hck]; rfl
      · rw [if_neg hck, if_neg hck]; rfl)
  -- local map
  have hga := a2.consistent hgc
  have hra : ∃ d ∈ ga.dats, d.sym = ga.rankSym ∧ 2 ≤ d.ncomp := by
    rw [a2.dats, a2.rankSym]; exact hg.rank
  have hva : ∀ {c k : Nat}, c < ga.ncell → k < count ga c → c < g.ncell ∧ k < count g c := by
    intro c k hc hk
    rw [a2.ncell] at hc; rw [a2.count] at hk
    exact ⟨hc, hk⟩
  have hPa : ∀ c k, c < ga.ncell → k < count ga c → mapPart dec m.mh.dims.length ga c k =
      some ⟨pos c k, -1, -1⟩ := by
    intro c k hc hk
    obtain ⟨hc, hk⟩ := hva hc hk
    refine mapPart_eq ?_ ?_ ?_
    · rw [a2.position hg.rank_pos]; exact (hex c k hc hk).1
    · rw [a2.rankSym]; exact a2.fst c k hc hk
    · rw [a2.rankSym]; exact a2.snd c k hc hk
  have hsa : SmallCounts ga := by unfold SmallCounts; rw [a2.hNpart]; exact hs
  obtain ⟨gb, b1, b2⟩ := onMapView_spec (dec := dec) (sym := ga.posSym) hga hra hga.pos hPa
    (f := localMapLoop m extent lm e.glob.loop e.map1 none) (P' := fun c k => ⟨pos c k, -1, L c k⟩)
    (by
      intro cells hcells
      refine localMapLoop_spec (cell := none) hE.glob e.map1 hga hsa trivial ?_ ?_ hcells
      · intro c k hc hk _
        obtain ⟨hc, hk⟩ := hva hc hk
        have := hex c k hc hk
        by_cases hh : InHalo m r (T c k)
        · simp only [L, if_pos hh]; exact this.2.2.2.2.2.1 hh
        · simp only [L, if_neg hh]; exact this.2.2.2.2.2.2 hh
      · intro c k _ _ hn; exact absurd trivial hn)
  -- global map
  have hgb := b2.consistent hga
  have hrb : ∃ d ∈ gb.dats, d.sym = gb.rankSym ∧ 2 ≤ d.ncomp := by
    rw [b2.dats, b2.rankSym]; exact hra
  have hvb : ∀ {c k : Nat}, c < gb.ncell → k < count gb c → c < ga.ncell ∧ k < count ga c := by
    intro c k hc hk
    rw [b2.ncell] at hc; rw [b2.count] at hk
    exact ⟨hc, hk⟩
  have hnea : ga.rankSym ≠ ga.posSym := by rw [a2.rankSym, a2.posSym]; exact hg.rank_pos
  have hPb : ∀ c k, c < gb.ncell → k < count gb c → mapPart dec m.mh.dims.length gb c k =
      some ⟨pos c k, -1, L c k⟩ := by
    intro c k hc hk
    obtain ⟨hc, hk⟩ := hvb hc hk
    obtain ⟨hc', hk'⟩ := hva hc hk
    refine mapPart_eq ?_ ?_ ?_
    · rw [b2.position hnea, a2.position hg.rank_pos]; exact (hex c k hc' hk').1
    · rw [b2.rankSym]; exact b2.fst c k hc hk
    · rw [b2.rankSym]; exact b2.snd c k hc hk
  obtain ⟨gc, c1, c2⟩ := onMapView_spec (dec := dec) (sym := gb.rankSym) hgb hrb hgb.rank hPb
    (f := fun _ cells => globalMapExecute e.look e.bin e.write e.cells e.indices (m.geom extent) map
      cells)
    (P' := fun c k => ⟨pos c k, if L c k < 0 then (R c k : Int) else -1, L c k⟩)
    (by
      intro cells hcells
      have hget : ∀ c k p, rd2 cells (c, k) = some p →
          (c < g.ncell ∧ k < count g c) ∧ (c < gb.ncell ∧ k < count gb c) ∧
            p = ⟨pos c k, -1, L c k⟩ := by
        intro c k p hp
        rw [hcells c k] at hp
        by_cases hck : c < gb.ncell ∧ k < count gb c
        · rw [if_pos hck] at hp
          have h1 := hvb hck.1 hck.2
          exact ⟨hva h1.1 h1.2, hck, (Option.some.inj hp).symm⟩
        · rw [if_neg hck] at hp; simp at hp
      obtain ⟨cells', q1, -, q2, q3, q4⟩ := C36_execute e.look e.bin e.write e.cells e.indices
        (m.geom extent) (geom_valid hv he) hv.ndim map hmap.len cells
        (by
          rintro ⟨c, k⟩ p hp _
          obtain ⟨hck, -, rfl⟩ := hget c k p hp
          have := hex c k hck.1 hck.2
          exact geom_inDomain this.2.2.1 this.2.1)
      refine ⟨cells', q1, ?_⟩
      intro c k
      by_cases hck : c < gb.ncell ∧ k < count gb c
      · have hp : rd2 cells (c, k) = some ⟨pos c k, -1, L c k⟩ := by rw [hcells c k, if_pos hck]
        rw [if_pos hck]
        by_cases hneg : L c k < 0
        · obtain ⟨o, y, cell, w1, w2, w3, w4, w5⟩ := q4 _ _ hp hneg
          have hck0 := (hget c k _ hp).1
          obtain ⟨p1, p2, p3, p4, p5, -⟩ := hex c k hck0.1 hck0.2
          have hy : IsMeshCell m y := isMeshCell_of_isCellAt w2
          have hyn : NearestCell m extent y (pos c k) :=
            contains_nearest hy (by rw [isMeshCell_length hy, p3]) w3 he
          have hyT := nearest_unique he hyn p4
          subst hyT
          obtain ⟨o1, o2⟩ := owns_of_owningRank hv hy p5
          have := hmap.owner _ _ _ hy o2 o1 w2
          rw [w5] at this
          rw [w1]
          dsimp only
          rw [if_pos hneg, Option.some.inj this]
        · rw [q3 _ _ hp hneg]
          dsimp only
          rw [if_neg hneg]
      · rw [if_neg hck]
        exact q2 _ (by rw [hcells c k, if_neg hck]))
  refine ⟨gc, _, ?_, (a2.trans b2).trans c2, ?_⟩
  · unfold hybridMap
    have hnd : m.ndim = m.mh.dims.length := rfl
    rw [hnd, a1, Option.bind_some, b1, Option.bind_some, c1]
  · intro c k hc hk
    obtain ⟨p1, p2, p3, p4, p5, -⟩ := hex c k hc hk
    refine ⟨pos c k, T c k, R c k, p1, p4, p5, ?_, ?_⟩
    · intro hh
      have : L c k = (R c k : Int) := if_pos hh
      rw [this, if_neg (by omega)]
    · intro hh
      have : L c k = -1 := if_neg hh
      rw [this, if_pos (by omega)]

end NP
