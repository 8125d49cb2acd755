import Verif.Hybrid.LemmasHybrid

/-!
# C72: `hybrid_move`
-/

set_option autoImplicit false

namespace NP

open Spec

/-- **C72** The constructors of the local mappers and of the local moves succeed on all ranks. -/
theorem C72_setup (m : CartMesh) (hv : ValidCartMesh m) (map : List Int) (hmap : OwnerMap m map)
    (order : Sched) (arrive : Nat → Sched) (fresh : Nat → List Nat)
    (hf : ∀ r, r < m.comm.dims.prod → (fresh r).length = m.comm.dims.prod) :
    ∃ w, hybridSetup m map order arrive fresh = some w := by
  obtain ⟨w, h, -⟩ := hybridSetup_spec hv hmap order arrive hf
  exact ⟨w, h⟩

theorem rank_has_comp {g : Group} (hr : ∃ d ∈ g.dats, d.sym = g.rankSym ∧ 2 ≤ d.ncomp) {j : Nat}
    (hj : j < 2) : ∃ d ∈ g.dats, d.sym = g.rankSym ∧ j < d.ncomp := by
  obtain ⟨d, h1, h2, h3⟩ := hr
  exact ⟨d, h1, h2, by omega⟩

theorem has_comp_congr {g g' : Group} (hc : flatComps g'.dats = flatComps g.dats) {s n : Nat}
    (hn : 0 < n) (h : ∃ d ∈ g.dats, d.sym = s ∧ n ≤ d.ncomp) :
    ∃ d ∈ g'.dats, d.sym = s ∧ n ≤ d.ncomp := by
  obtain ⟨d, h1, h2, h3⟩ := h
  have : (s, n - 1) ∈ flatComps g.dats := mem_flatComps.2 ⟨d, h1, h2, by show n - 1 < d.ncomp; omega⟩
  rw [← hc] at this
  obtain ⟨d', h4, h5, h6⟩ := mem_flatComps.1 this
  have h6 : n - 1 < d'.ncomp := h6
  exact ⟨d', h4, h5, by omega⟩

/-- What is needed of a group is kept by a move, if it is known of the sources of its particles. -/
theorem hybridGroupOk_of {m : CartMesh} (hv : ValidCartMesh m) {extent : ℚ} {dec : Int → ℚ}
    {g g' : Group} (hg : HybridGroupOk m extent dec g) (hc : Consistent g') (hs : SameShape g g')
    (hsrc : ∀ c k, c < g'.ncell → k < count g' c → ∃ h c0 k0, HybridGroupOk m extent dec h ∧
      c0 < h.ncell ∧ k0 < count h c0 ∧ position dec m.mh.dims.length g' c k =
        position dec m.mh.dims.length h c0 k0 ∧ cellId g' c k = cellId h c0 k0) :
    HybridGroupOk m extent dec g' := by
  refine ⟨hc, ?_, ?_, ?_, ?_, ?_, ?_, ?_, ?_⟩
  · rw [hs.ncell]; exact hg.cells
  · rw [hs.pos]
    exact has_comp_congr hs.comps (List.length_pos_of_ne_nil hv.mesh.1) hg.pos
  · rw [hs.rank]
    exact has_comp_congr hs.comps (by omega) hg.rank
  · rw [hs.rank, hs.pos]; exact hg.rank_pos
  · rw [hs.rank, hs.cell]; exact hg.rank_cell
  · rw [hs.cell, hs.pos]; exact hg.cell_pos
  · intro c k h1 h2
    obtain ⟨h, c0, k0, q1, q2, q3, -, q5⟩ := hsrc c k h1 h2
    rw [q5]
    exact q1.ids c0 k0 q2 q3
  · intro c k h1 h2
    obtain ⟨h, c0, k0, q1, q2, q3, q4, -⟩ := hsrc c k h1 h2
    rw [q4]
    exact q1.inside c0 k0 q2 q3

theorem sum_length_le {n : Nat} {f : Nat → Nat} {r : Nat} (hr : r < n) :
    f r ≤ ((List.range n).map f).sum :=
  List.le_sum_of_mem (List.mem_map.2 ⟨r, List.mem_range.2 hr, rfl⟩)

/-- **C72** `hybrid_move` on all ranks of a Cartesian mesh, for every order of the work items, of
the remote increments and of the arrival of messages: afterwards every particle is on the rank that
owns the cell of the mesh it is in. No particle is lost or duplicated and no value other than the
first two components of the MPI rank property changes. The groups can be moved again, and sub groups
made before are invalid. -/
theorem C72_hybrid_move (m : CartMesh) (hv : ValidCartMesh m) (extent : ℚ) (he : 0 < extent)
    (dec : Int → ℚ) (map : List Int) (hmap : OwnerMap m map) (order : Sched) (arrive : Nat → Sched)
    (fresh : Nat → List Nat) (hf : ∀ r, r < m.comm.dims.prod → (fresh r).length = m.comm.dims.prod)
    (w : HybridWorld) (hw : hybridSetup m map order arrive fresh = some w) (nReal : Nat)
    (cm : HybridComm) (hcm : ∀ r, r < m.comm.dims.prod →
      (cm.globMap r).length = m.comm.dims.prod ∧ (cm.locMap r).length = m.comm.dims.prod)
    (e : Nat → HybridEnv) (hE : ∀ r, r < m.comm.dims.prod → HybridEnvOk (e r))
    (g : Nat → Group) (hg : HybridOk m extent dec g) :
    ∃ out, hybridMove m extent dec map w nReal cm e g = some out ∧
      out.length = m.comm.dims.prod ∧
      (∀ r, r < m.comm.dims.prod → ∃ g', out[r]? = some g' ∧ SameShape (g r) g' ∧
        (g r).version < g'.version ∧ OnOwner m extent dec r g') ∧
      (out.flatMap (allBut isRank)).Perm
        ((List.range m.comm.dims.prod).flatMap fun r => allBut isRank (g r)) ∧
      HybridOk m extent dec (fun r => out.getD r (g r)) := by
  obtain ⟨w', hw1, ranks, hw2⟩ := hybridSetup_spec hv hmap order arrive hf
  rw [hw] at hw1
  obtain rfl := Option.some.inj hw1
  have hW := hw2 extent he
  clear hw2
  generalize hn : m.comm.dims.prod = n at *
  obtain ⟨hWm, hWp, hWb, hWr⟩ := hW
  obtain ⟨hgg, hgcomps, hgnames, hgsmall⟩ := hg
  rw [hn] at hWm hWp hWb hWr hgg hgcomps hgnames hgsmall
  have hsmall0 : ∀ r, r < n → SmallCounts (g r) := fun r hr =>
    smallCounts_of_sum (lt_of_le_of_lt (sum_length_le (f := fun r => (g r).hNpart.sum) hr) hgsmall)
  have : Inhabited LocalMapper := ⟨⟨[], []⟩⟩
  choose! lm lm1 lm2 using hWm
  -- mapping
  have hmapped := fun r (hr : r < n) => hybridMap_spec hv he hmap (lm2 r hr) (hE r hr) (hgg r hr)
    (hsmall0 r hr)
  have : Inhabited Group := ⟨g 0⟩
  choose! g1 F1 m1 m2 m3 using hmapped
  let G1 : Nat → Group := fun r => ((List.range n).map g1).getD r (g r)
  have hG1 : ∀ r, r < n → G1 r = g1 r := by intro r hr; simp [G1, hr]
  have hR1 : ∀ r, r < n → RanksSet (g r) (G1 r) (F1 r) := by
    intro r hr; rw [hG1 r hr]; exact m2 r hr
  have hc1 : ∀ r, r < n → Consistent (G1 r) := fun r hr => (hR1 r hr).consistent (hgg r hr).consistent
  have hrank1 : ∀ r, r < n → ∃ d ∈ (G1 r).dats, d.sym = (G1 r).rankSym ∧ 2 ≤ d.ncomp := by
    intro r hr; rw [(hR1 r hr).dats, (hR1 r hr).rankSym]; exact (hgg r hr).rank
  have hpos1 : ∀ r, r < n → ∃ d ∈ (G1 r).dats, d.sym = (G1 r).posSym ∧
      m.mh.dims.length ≤ d.ncomp := by
    intro r hr; rw [(hR1 r hr).dats, (hR1 r hr).posSym]; exact (hgg r hr).pos
  have hcomps1 : ∀ r s, r < n → s < n → flatComps (G1 r).dats = flatComps (G1 s).dats := by
    intro r s hr hs; rw [(hR1 r hr).dats, (hR1 s hs).dats]; exact hgcomps r s hr hs
  have hnames1 : ∀ r s, r < n → s < n → (G1 r).posSym = (G1 s).posSym ∧
      (G1 r).rankSym = (G1 s).rankSym ∧ (G1 r).cellSym = (G1 s).cellSym := by
    intro r s hr hs
    rw [(hR1 r hr).posSym, (hR1 s hs).posSym, (hR1 r hr).rankSym, (hR1 s hs).rankSym,
      (hR1 r hr).cellSym, (hR1 s hs).cellSym]
    exact hgnames r s hr hs
  -- global move
  have hcan1 : ∀ r, r < n → CanMove n r 0 (e r).glob (cm.globMap r) (G1 r) := by
    intro r hr
    refine ⟨(hE r hr).glob, hc1 r hr, ?_, rank_has_comp (hrank1 r hr) (by omega), (hcm r hr).1, ?_, ?_⟩
    · unfold SmallCounts; rw [(hR1 r hr).hNpart]; exact hsmall0 r hr
    · rw [(hR1 r hr).ncell]; exact (hgg r hr).cells
    · intro c k hc hk _
      rw [(hR1 r hr).ncell] at hc; rw [(hR1 r hr).count] at hk
      rw [(hR1 r hr).cellId (hgg r hr).rank_cell]
      exact (hgg r hr).ids c k hc hk
  obtain ⟨out2, o1, o2⟩ := C28_global_move cm.order cm.arrive1 cm.arrive2 cm.aware nReal hcan1 hcomps1
  have hsrc2 : ∀ r g', r < n → out2[r]? = some g' → ∀ c k, c < g'.ncell → k < count g' c →
      ∃ s c0 k0, s < n ∧ c0 < (G1 s).ncell ∧ k0 < count (G1 s) c0 ∧
        SameParticle (G1 s) c0 k0 g' c k ∧
        (s = r ∧ c0 = c ∧ destination n s 0 (G1 s) c0 k0 = none ∨
          c = 0 ∧ destination n s 0 (G1 s) c0 k0 = some r) :=
    fun r g' hr hg' c k hc hk => moved_source o2 hcomps1 hnames1 hr hg' hc hk
  have ho2 := o2.2
  choose! g2 u1 u2 u3 u4 u5 using ho2
  have hout2 : out2 = (List.range n).map g2 := by
    apply List.ext_getElem?
    intro i
    rw [List.getElem?_map]
    by_cases hi : i < n
    · rw [u1 i hi, List.getElem?_range hi]; rfl
    · rw [List.getElem?_eq_none (by have := o2.1; omega), List.getElem?_eq_none (by simpa using hi)]
      rfl
  -- the groups after the global move
  have hinv2 : ∀ r, r < n → ∀ c k, c < (g2 r).ncell → k < count (g2 r) c → ∃ s c0 k0, s < n ∧
      c0 < (g s).ncell ∧ k0 < count (g s) c0 ∧
      position dec m.mh.dims.length (g2 r) c k = position dec m.mh.dims.length (g s) c0 k0 ∧
      cellId (g2 r) c k = cellId (g s) c0 k0 ∧ ∃ p t r',
      position dec m.mh.dims.length (g2 r) c k = some p ∧ NearestCell m extent t p ∧
      m.owningRank t = some r' ∧ InHalo m r t ∧
      ((g2 r).mem ⟨(g2 r).rankSym, c, 1, k⟩ = some (r' : Int) ∨
        c = 0 ∧ (g2 r).mem ⟨(g2 r).rankSym, c, 1, k⟩ = some (-1)) := by
    intro r hr c k hc hk
    obtain ⟨s, c0, k0, hs, hc0, hk0, hsame, hcase⟩ := hsrc2 r (g2 r) hr (u1 r hr) c k hc hk
    have hc0' := hc0
    have hk0' := hk0
    rw [(hR1 s hs).ncell] at hc0'
    rw [(hR1 s hs).count] at hk0'
    obtain ⟨p, t, r', f1, f2, f3, f4, f5⟩ := m3 s hs c0 k0 hc0' hk0'
    have hpos : position dec m.mh.dims.length (g2 r) c k =
        position dec m.mh.dims.length (g s) c0 k0 := by
      rw [hsame.position dec (hpos1 s hs), (hR1 s hs).position (hgg s hs).rank_pos]
    have hcid : cellId (g2 r) c k = cellId (g s) c0 k0 := by
      rw [hsame.cellId (hc1 s hs), (hR1 s hs).cellId (hgg s hs).rank_cell]
    refine ⟨s, c0, k0, hs, hc0', hk0', hpos, hcid, p, t, r', hpos.trans f1, f2, f3, ?_⟩
    rw [hsame.rankMem (hrank1 s hs) (by omega), (hR1 s hs).rankSym, (hR1 s hs).snd c0 k0 hc0' hk0']
    have hr' := owns_of_owningRank hv f2.1 f3
    rw [hn] at hr'
    have hfst := (hR1 s hs).fst c0 k0 hc0' hk0'
    by_cases hh : InHalo m s t
    · rw [f4 hh] at hfst ⊢
      rcases hcase with ⟨rfl, -, -⟩ | ⟨-, hd⟩
      · exact ⟨hh, .inl rfl⟩
      · obtain ⟨-, -, hd⟩ := destination_eq_some.1 hd
        rw [(hR1 s hs).rankSym, hfst] at hd
        have := Option.some.inj hd
        dsimp only at this
        omega
    · rw [f5 hh] at hfst ⊢
      rcases hcase with ⟨rfl, -, hd⟩ | ⟨hc0, hd⟩
      · exfalso
        by_cases hrs : r' = s
        · subst hrs; exact hh (inHalo_own f2.1 hr'.2)
        · have : destination n s 0 (G1 s) c0 k0 = some r' :=
            destination_eq_some.2 ⟨hr'.1, hrs, by rw [(hR1 s hs).rankSym, hfst]⟩
          rw [this] at hd
          simp at hd
      · obtain ⟨-, -, hd⟩ := destination_eq_some.1 hd
        rw [(hR1 s hs).rankSym, hfst] at hd
        have hrr : r' = r := by
          have := Option.some.inj hd
          dsimp only at this
          omega
        subst hrr
        exact ⟨inHalo_own f2.1 hr'.2, .inr ⟨hc0, rfl⟩⟩
  have hshape2 : ∀ r, r < n → SameShape (g r) (g2 r) := by
    intro r hr
    have h1 := (hR1 r hr).shape
    have h2 := u3 r hr
    exact ⟨h2.ncell.trans h1.ncell, h2.comps.trans h1.comps, h2.pos.trans h1.pos,
      h2.rank.trans h1.rank, h2.cell.trans h1.cell, h2.hint.trans h1.hint⟩
  have hok2 : ∀ r, r < n → HybridGroupOk m extent dec (g2 r) := by
    intro r hr
    refine hybridGroupOk_of hv (hgg r hr) (u2 r hr) (hshape2 r hr) ?_
    intro c k hc hk
    obtain ⟨s, c0, k0, hs, h1, h2, h3, h4, -⟩ := hinv2 r hr c k hc hk
    exact ⟨g s, c0, k0, hgg s hs, h1, h2, h3, h4⟩
  have hcons2 : (((List.range n).map g2).flatMap (allBut isRank)).Perm
      ((List.range n).flatMap fun r => allBut isRank (g r)) := by
    have h1 := moved_allBut o2 (fun r hr => (hcan1 r hr).cells) hcomps1 hnames1
    rw [hout2] at h1
    refine h1.trans (List.Perm.of_eq ?_)
    apply List.flatMap_congr
    intro r hr
    exact (hR1 r (List.mem_range.1 hr)).allBut
  have hsum : ∀ G : Nat → Group, (∀ r, r < n → Consistent (G r)) →
      ((List.range n).flatMap fun r => allBut isRank (G r)).length =
        ((List.range n).map fun r => (G r).hNpart.sum).sum := by
    intro G hG
    rw [List.length_flatMap]
    congr 1
    apply List.map_congr_left
    intro r hr
    exact length_allBut _ (hG r (List.mem_range.1 hr)).len
  have hsum2 : ((List.range n).map fun r => (g2 r).hNpart.sum).sum < 2 ^ 31 := by
    have := hcons2.length_eq
    rw [List.flatMap_map, hsum g2 u2, hsum g fun r hr => (hgg r hr).consistent] at this
    omega
  have hsmall2 : ∀ r, r < n → SmallCounts (g2 r) := fun r hr =>
    smallCounts_of_sum (lt_of_le_of_lt (sum_length_le (f := fun r => (g2 r).hNpart.sum) hr) hsum2)
  -- local map
  have hbet := fun r (hr : r < n) => hybridBetween_spec (dec := dec) (r := r) he (lm2 r hr) (hE r hr)
    (u2 r hr) (hsmall2 r hr) (hok2 r hr).cells (hok2 r hr).rank
    (by
      intro c k hc hk
      obtain ⟨-, -, -, -, -, -, -, -, h⟩ := hinv2 r hr c k hc hk
      exact h)
  choose! g3 F3 b1 b2 b3 using hbet
  let G3 : Nat → Group := fun r => ((List.range n).map g3).getD r (g r)
  have hG3 : ∀ r, r < n → G3 r = g3 r := by intro r hr; simp [G3, hr]
  have hR3 : ∀ r, r < n → RanksSet { g2 r with version := (g2 r).version - 1 } (G3 r) (F3 r) := by
    intro r hr; rw [hG3 r hr]; exact b2 r hr
  have hc2' : ∀ r, r < n → Consistent { g2 r with version := (g2 r).version - 1 } := by
    intro r hr
    have hgc := u2 r hr
    exact ⟨hgc.len, hgc.device, hgc.es_len, hgc.es, hgc.total, hgc.nodup,
      fun d hd => ⟨(hgc.dats d hd).mem, (hgc.dats d hd).host, (hgc.dats d hd).device,
      (hgc.dats d hd).rows, (hgc.dats d hd).exact⟩, hgc.pos, hgc.rank, hgc.cell⟩
  have hc3 : ∀ r, r < n → Consistent (G3 r) := fun r hr => (hR3 r hr).consistent (hc2' r hr)
  have hshape3 : ∀ r, r < n → SameShape (g r) (G3 r) := by
    intro r hr
    have h1 := hshape2 r hr
    have h2 := (hR3 r hr).shape
    exact ⟨h2.ncell.trans h1.ncell, h2.comps.trans h1.comps, h2.pos.trans h1.pos,
      h2.rank.trans h1.rank, h2.cell.trans h1.cell, h2.hint.trans h1.hint⟩
  have hcomps3 : ∀ r s, r < n → s < n → flatComps (G3 r).dats = flatComps (G3 s).dats := by
    intro r s hr hs
    rw [(hshape3 r hr).comps, (hshape3 s hs).comps]; exact hgcomps r s hr hs
  have hnames3 : ∀ r s, r < n → s < n → (G3 r).posSym = (G3 s).posSym ∧
      (G3 r).rankSym = (G3 s).rankSym ∧ (G3 r).cellSym = (G3 s).cellSym := by
    intro r s hr hs
    rw [(hshape3 r hr).pos, (hshape3 s hs).pos, (hshape3 r hr).rank, (hshape3 s hs).rank,
      (hshape3 r hr).cell, (hshape3 s hs).cell]
    exact hgnames r s hr hs
  have hok3 : ∀ r, r < n → HybridGroupOk m extent dec (G3 r) := by
    intro r hr
    refine hybridGroupOk_of hv (hgg r hr) (hc3 r hr) (hshape3 r hr) ?_
    intro c k hc hk
    rw [(hR3 r hr).ncell] at hc; rw [(hR3 r hr).count] at hk
    exact ⟨g2 r, c, k, hok2 r hr, hc, hk, (hR3 r hr).position (hok2 r hr).rank_pos dec _ c k,
      (hR3 r hr).cellId (hok2 r hr).rank_cell c k⟩
  have hst3 : ∀ r, r < n → ∀ c k, c < (G3 r).ncell → k < count (G3 r) c → ∃ p t r',
      position dec m.mh.dims.length (G3 r) c k = some p ∧ NearestCell m extent t p ∧
      m.owningRank t = some r' ∧ InHalo m r t ∧
      (G3 r).mem ⟨(G3 r).rankSym, c, 1, k⟩ = some (r' : Int) := by
    intro r hr c k hc hk
    rw [(hR3 r hr).ncell] at hc; rw [(hR3 r hr).count] at hk
    obtain ⟨p, t, r', h1, h2, h3, h4, h5⟩ := b3 r hr c k hc hk
    refine ⟨p, t, r', ((hR3 r hr).position (hok2 r hr).rank_pos dec _ c k).trans h1, h2, h3, h4, ?_⟩
    rw [(hR3 r hr).rankSym, (hR3 r hr).snd c k hc hk, h5]
  -- local move
  have hcan3 : ∀ r, r < n → CanMove n r 1 (e r).loc (cm.locMap r) (G3 r) := by
    intro r hr
    refine ⟨(hE r hr).loc, hc3 r hr, ?_, rank_has_comp (hok3 r hr).rank (by omega), (hcm r hr).2,
      (hok3 r hr).cells, fun c k hc hk _ => (hok3 r hr).ids c k hc hk⟩
    unfold SmallCounts; rw [(hR3 r hr).hNpart]; exact hsmall2 r hr
  have hpat : ∀ r, r < n → PatternOk n ranks r (w.pats.getD r default) := by
    intro r hr
    obtain ⟨p, h1, h2⟩ := hWp r hr
    rw [List.getD_eq_getElem?_getD, h1]
    exact h2
  obtain ⟨out4, v1, v2⟩ := C30_local_move cm.arrive3 cm.arrive4 cm.aware nReal hcan3 hcomps3 hWb hpat
    (by
      intro r c k t hr hc hk hd
      obtain ⟨p, t', r', h1, h2, h3, h4, h5⟩ := hst3 r hr c k hc hk
      obtain ⟨-, -, hd⟩ := destination_eq_some.1 hd
      rw [h5] at hd
      have : (r' : Int) = t := Option.some.inj hd
      rw [← this]
      exact hWr r hr t' r' h2.1 h4 h3)
  have hsrc4 : ∀ r g', r < n → out4[r]? = some g' → ∀ c k, c < g'.ncell → k < count g' c →
      ∃ s c0 k0, s < n ∧ c0 < (G3 s).ncell ∧ k0 < count (G3 s) c0 ∧
        SameParticle (G3 s) c0 k0 g' c k ∧
        (s = r ∧ c0 = c ∧ destination n s 1 (G3 s) c0 k0 = none ∨
          c = 0 ∧ destination n s 1 (G3 s) c0 k0 = some r) :=
    fun r g' hr hg' c k hc hk => moved_source v2 hcomps3 hnames3 hr hg' hc hk
  have hv2 := v2.2
  choose! g4 x1 x2 x3 x4 x5 using hv2
  have hout4 : out4 = (List.range n).map g4 := by
    apply List.ext_getElem?
    intro i
    rw [List.getElem?_map]
    by_cases hi : i < n
    · rw [x1 i hi, List.getElem?_range hi]; rfl
    · rw [List.getElem?_eq_none (by have := v2.1; omega), List.getElem?_eq_none (by simpa using hi)]
      rfl
  have hshape4 : ∀ r, r < n → SameShape (g r) (g4 r) := by
    intro r hr
    have h1 := hshape3 r hr
    have h2 := x3 r hr
    exact ⟨h2.ncell.trans h1.ncell, h2.comps.trans h1.comps, h2.pos.trans h1.pos,
      h2.rank.trans h1.rank, h2.cell.trans h1.cell, h2.hint.trans h1.hint⟩
  have hcons4 : (out4.flatMap (allBut isRank)).Perm
      ((List.range n).flatMap fun r => allBut isRank (g r)) := by
    have h1 := moved_allBut v2 (fun r hr => (hcan3 r hr).cells) hcomps3 hnames3
    refine h1.trans (List.Perm.trans (List.Perm.of_eq ?_) hcons2)
    rw [List.flatMap_map]
    apply List.flatMap_congr
    intro r hr
    exact (hR3 r (List.mem_range.1 hr)).allBut
  have hown : ∀ r, r < n → OnOwner m extent dec r (g4 r) := by
    intro r hr c k hc hk
    obtain ⟨s, c0, k0, hs, hc0, hk0, hsame, hcase⟩ := hsrc4 r (g4 r) hr (x1 r hr) c k hc hk
    obtain ⟨p, t, r', h1, h2, h3, h4, h5⟩ := hst3 s hs c0 k0 hc0 hk0
    have hr' := owns_of_owningRank hv h2.1 h3
    rw [hn] at hr'
    refine ⟨p, t, (hsame.position dec (hok3 s hs).pos).trans h1, h2, ?_⟩
    rcases hcase with ⟨rfl, -, hd⟩ | ⟨-, hd⟩
    · by_cases hrs : r' = s
      · subst hrs; exact hr'.2
      · rw [destination_eq_some.2 ⟨hr'.1, hrs, h5⟩] at hd
        simp at hd
    · obtain ⟨-, -, hd⟩ := destination_eq_some.1 hd
      rw [h5] at hd
      have : r' = r := by have := Option.some.inj hd; omega
      subst this
      exact hr'.2
  refine ⟨out4, ?_, v2.1, ?_, hcons4, ?_⟩
  · unfold hybridMove
    rw [hn]
    dsimp only
    have e1 : (List.range n).mapM (fun r => (rd w.mappers r).bind fun lm =>
        hybridMap m extent dec map lm (e r) (g r)) = some ((List.range n).map g1) := by
      apply mapM_of_forall
      intro r hr
      rw [List.mem_range] at hr
      simp only [rd]
      rw [lm1 r hr, Option.bind_some, m1 r hr]
    rw [e1, Option.bind_some]
    refine (congrArg (fun x => Option.bind x _) o1).trans ?_
    rw [Option.bind_some]
    have e3 : (List.range n).mapM (fun r => (rd w.mappers r).bind fun lm => (rd out2 r).bind fun x =>
        hybridBetween m extent dec lm (e r) x) = some ((List.range n).map g3) := by
      apply mapM_of_forall
      intro r hr
      rw [List.mem_range] at hr
      simp only [rd]
      rw [lm1 r hr, Option.bind_some, u1 r hr, Option.bind_some, b1 r hr]
    rw [e3, Option.bind_some]
    exact v1
  · intro r hr
    refine ⟨g4 r, x1 r hr, hshape4 r hr, ?_, hown r hr⟩
    rw [x4 r hr, (hR3 r hr).version]
    dsimp only
    rw [u4 r hr, (hR1 r hr).version]
    omega
  · have hget : ∀ r, r < n → out4.getD r (g r) = g4 r := by
      intro r hr
      rw [List.getD_eq_getElem?_getD, x1 r hr]
      rfl
    constructor
    · intro r hr
      rw [hn] at hr
      rw [hget r hr]
      refine hybridGroupOk_of hv (hgg r hr) (x2 r hr) (hshape4 r hr) ?_
      intro c k hc hk
      obtain ⟨s, c0, k0, hs, hc0, hk0, hsame, -⟩ := hsrc4 r (g4 r) hr (x1 r hr) c k hc hk
      exact ⟨G3 s, c0, k0, hok3 s hs, hc0, hk0, hsame.position dec (hok3 s hs).pos,
        hsame.cellId (hc3 s hs)⟩
    · intro r s hr hs
      rw [hn] at hr hs
      rw [hget r hr, hget s hs, (hshape4 r hr).comps, (hshape4 s hs).comps]
      exact hgcomps r s hr hs
    · intro r s hr hs
      rw [hn] at hr hs
      rw [hget r hr, hget s hs, (hshape4 r hr).pos, (hshape4 s hs).pos, (hshape4 r hr).rank,
        (hshape4 s hs).rank, (hshape4 r hr).cell, (hshape4 s hs).cell]
      exact hgnames r s hr hs
    · rw [hn]
      have h1 := hcons4.length_eq
      rw [hout4, List.flatMap_map, hsum g4 x2, hsum g fun r hr => (hgg r hr).consistent] at h1
      have h2 : ((List.range n).map fun r => (out4.getD r (g r)).hNpart.sum) =
          (List.range n).map fun r => (g4 r).hNpart.sum := by
        apply List.map_congr_left
        intro r hr
        rw [hget r (List.mem_range.1 hr)]
      rw [h2]
      omega

end NP
