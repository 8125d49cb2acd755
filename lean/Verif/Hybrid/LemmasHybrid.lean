import Verif.Hybrid.LemmasMoved
import Verif.Mesh.PropsMapper

/-! # The stages of `hybrid_move` together -/

set_option autoImplicit false

namespace NP

open Spec

/-- The local mapper between the two moves. -/
theorem hybridBetween_spec {m : CartMesh} {extent : ℚ} (he : 0 < extent)
    {dec : Int → ℚ} {r : Nat} {lm : LocalMapper} (hlm : MapperOk m extent r lm) {e : HybridEnv}
    (hE : HybridEnvOk e) {g : Group} (hgc : Consistent g) (hs : SmallCounts g) (hcells : 0 < g.ncell)
    (hrank : ∃ d ∈ g.dats, d.sym = g.rankSym ∧ 2 ≤ d.ncomp)
    (hst : ∀ c k, c < g.ncell → k < count g c → ∃ p t r',
      position dec m.mh.dims.length g c k = some p ∧ NearestCell m extent t p ∧
      m.owningRank t = some r' ∧ InHalo m r t ∧
      (g.mem ⟨g.rankSym, c, 1, k⟩ = some (r' : Int) ∨
        c = 0 ∧ g.mem ⟨g.rankSym, c, 1, k⟩ = some (-1))) :
    ∃ g' F, hybridBetween m extent dec lm e g = some g' ∧
      RanksSet { g with version := g.version - 1 } g' F ∧
      ∀ c k, c < g.ncell → k < count g c → ∃ p t r',
        position dec m.mh.dims.length g c k = some p ∧ NearestCell m extent t p ∧
        m.owningRank t = some r' ∧ InHalo m r t ∧ (F c k).2 = (r' : Int) := by
  have hex : ∀ c k, ∃ p t r' r0 r1, c < g.ncell → k < count g c →
      position dec m.mh.dims.length g c k = some p ∧
      p.length = m.mh.dims.length ∧ NearestCell m extent t p ∧ m.owningRank t = some r' ∧
      InHalo m r t ∧ g.mem ⟨g.rankSym, c, 0, k⟩ = some r0 ∧ g.mem ⟨g.rankSym, c, 1, k⟩ = some r1 ∧
      (r1 = (r' : Int) ∨ c = 0 ∧ r1 = -1) := by
    intro c k
    by_cases hck : c < g.ncell ∧ k < count g c
    · obtain ⟨p, t, r', h1, h2, h3, h4, h5⟩ := hst c k hck.1 hck.2
      obtain ⟨v0, h0⟩ := Option.isSome_iff_exists.1 (rank_isSome hgc hrank hck.1 hck.2 (j := 0)
        (by omega))
      obtain ⟨v1, h6⟩ := Option.isSome_iff_exists.1 (rank_isSome hgc hrank hck.1 hck.2 (j := 1)
        (by omega))
      refine ⟨p, t, r', v0, v1, fun _ _ => ⟨h1, position_length h1, h2, h3, h4, h0, h6, ?_⟩⟩
      rw [h6] at h5
      simpa using h5
    · exact ⟨[], [], 0, 0, 0, fun h1 h2 => absurd ⟨h1, h2⟩ hck⟩
  choose pos T R r0 r1 hex using hex
  let h : Group := { g with version := g.version - 1 }
  have hh : Consistent h := ⟨hgc.len, hgc.device, hgc.es_len, hgc.es, hgc.total, hgc.nodup,
    fun d hd => ⟨(hgc.dats d hd).mem, (hgc.dats d hd).host, (hgc.dats d hd).device,
      (hgc.dats d hd).rows, (hgc.dats d hd).exact⟩, hgc.pos, hgc.rank, hgc.cell⟩
  obtain ⟨g', a1, a2⟩ := onMapView_spec (dec := dec) (ndim := m.mh.dims.length) (g := h)
    (sym := g.posSym) hh hrank hgc.pos (P := fun c k => ⟨pos c k, r0 c k, r1 c k⟩)
    (by
      intro c k hc hk
      obtain ⟨b1, b2, b3, b4, b5, b6, b7, b8⟩ := hex c k hc hk
      exact mapPart_eq (g := h) b1 b6 b7)
    (f := localMapLoop m extent lm e.loc.loop e.map2 (some 0))
    (P' := fun c k => ⟨pos c k, r0 c k, (R c k : Int)⟩)
    (by
      intro cells hcv
      refine localMapLoop_spec (g := h) (cell := some 0) hE.loc e.map2 hh hs
        ⟨le_refl _, by exact_mod_cast hcells⟩ ?_ ?_ hcv
      · intro c k hc hk _
        obtain ⟨b1, b2, b3, b4, b5, b6, b7, b8⟩ := hex c k hc hk
        rcases b8 with b8 | ⟨-, b8⟩
        · rw [(hlm ⟨pos c k, r0 c k, r1 c k⟩ (by dsimp only; omega)).1 (by dsimp only; omega), b8]
        · obtain ⟨t, r', q1, q2, q3, -⟩ := (hlm ⟨pos c k, r0 c k, r1 c k⟩ (by dsimp only; omega)).2
            (by dsimp only; omega)
          have := nearest_unique he q1 b3
          subst this
          rw [q3 b5]
          rw [b4] at q2
          rw [Option.some.inj q2]
      · intro c k hc hk hn
        obtain ⟨b1, b2, b3, b4, b5, b6, b7, b8⟩ := hex c k hc hk
        rcases b8 with b8 | ⟨b8, -⟩
        · rw [b8]
        · exact absurd (show (c : Int) = 0 by omega) hn)
  refine ⟨g', _, ?_, a2, ?_⟩
  · unfold hybridBetween
    exact a1
  · intro c k hc hk
    obtain ⟨b1, b2, b3, b4, b5, b6, b7, b8⟩ := hex c k hc hk
    exact ⟨_, _, _, b1, b3, b4, b5, rfl⟩

/-- What the constructors have to provide. -/
structure WorldOk (m : CartMesh) (extent : ℚ) (ranks : Nat → List Int) (w : HybridWorld) :
    Prop where
  mapper : ∀ r, r < m.comm.dims.prod → ∃ lm, w.mappers[r]? = some lm ∧ MapperOk m extent r lm
  pat : ∀ r, r < m.comm.dims.prod → ∃ p, w.pats[r]? = some p ∧ PatternOk m.comm.dims.prod ranks r p
  bound : ∀ r, r < m.comm.dims.prod → ∀ x ∈ ranks r, 0 ≤ x ∧ x < (m.comm.dims.prod : Int)
  reach : ∀ r, r < m.comm.dims.prod → ∀ t r', IsMeshCell m t → InHalo m r t →
    m.owningRank t = some r' → (r' : Int) ∈ ranks r

theorem hybridSetup_spec {m : CartMesh} (hv : ValidCartMesh m) {map : List Int}
    (hmap : OwnerMap m map) (order : Sched) (arrive : Nat → Sched) {fresh : Nat → List Nat}
    (hf : ∀ r, r < m.comm.dims.prod → (fresh r).length = m.comm.dims.prod) :
    ∃ w, hybridSetup m map order arrive fresh = some w ∧
      ∃ ranks, ∀ extent, 0 < extent → WorldOk m extent ranks w := by
  have ho := ownerOf_spec hv hmap
  have hnb := fun r hr => C66_neighbours m hv (ownerOf map) ho r hr
  choose! nb n1 n2 n3 using hnb
  have hlm := fun r (hr : r < m.comm.dims.prod) =>
    C41_local_mapper m hv (ownerOf map) ho r hr 1 (by norm_num) (nb r) (n1 r hr)
  have : Inhabited LocalMapper := ⟨⟨[], []⟩⟩
  choose! lm l1 l2 using hlm
  have hlm' : ∀ extent, 0 < extent → ∀ r, r < m.comm.dims.prod → MapperOk m extent r (lm r) := by
    intro extent he r hr
    obtain ⟨lm', q1, q2⟩ := C41_local_mapper m hv (ownerOf map) ho r hr extent he (nb r) (n1 r hr)
    rw [l1 r hr] at q1
    obtain rfl := Option.some.inj q1
    exact q2
  have hnbs : (List.range m.comm.dims.prod).mapM (fun r => m.neighbourRanks (ownerOf map) r) =
      some ((List.range m.comm.dims.prod).map nb) :=
    mapM_of_forall fun r hr => n1 r (List.mem_range.1 hr)
  have hget : ∀ r, r < m.comm.dims.prod →
      ((List.range m.comm.dims.prod).map nb).getD r [] = nb r := by
    intro r hr; simp [hr]
  have hbound : ∀ r, r < m.comm.dims.prod → ∀ x ∈ nb r, 0 ≤ x ∧ x < (m.comm.dims.prod : Int) := by
    intro r hr x hx
    obtain ⟨t, r', h1, -, h3, rfl⟩ := (n3 r hr x).1 hx
    have := (owns_of_owningRank hv h1 h3).1
    omega
  obtain ⟨pats, p1, p2, p3⟩ := C30_setup (n := m.comm.dims.prod) order arrive hf
    (ranks := fun r => ((List.range m.comm.dims.prod).map nb).getD r [])
    (by intro r hr x hx; rw [hget r hr] at hx; exact hbound r hr x hx)
  refine ⟨⟨(List.range m.comm.dims.prod).map lm, pats⟩, ?_,
    fun r => ((List.range m.comm.dims.prod).map nb).getD r [], fun extent he => ⟨?_, p3, ?_, ?_⟩⟩
  · unfold hybridSetup
    dsimp only
    rw [hnbs, Option.bind_some]
    have : (List.range m.comm.dims.prod).mapM (fun r =>
        (rd ((List.range m.comm.dims.prod).map nb) r).bind fun nb =>
          createLocalMapper m (ownerOf map) nb r) =
        some ((List.range m.comm.dims.prod).map lm) := by
      apply mapM_of_forall
      intro r hr
      rw [List.mem_range] at hr
      simp only [rd]
      rw [List.getElem?_map, List.getElem?_range hr, Option.map_some, Option.bind_some, l1 r hr]
    rw [this, Option.bind_some, p1]
    rfl
  · intro r hr
    refine ⟨lm r, ?_, hlm' extent he r hr⟩
    rw [List.getElem?_map, List.getElem?_range hr]
    rfl
  · intro r hr x hx; rw [hget r hr] at hx; exact hbound r hr x hx
  · intro r hr t r' h1 h2 h3
    rw [hget r hr, n3 r hr]
    exact ⟨t, r', h1, h2, h3, rfl⟩

end NP
