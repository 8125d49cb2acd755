import Verif.Hybrid.LemmasCell
import Verif.Hybrid.Props

/-!
# C72: the map of owners, `cell_move`, and a whole step
-/

set_option autoImplicit false

namespace NP

open Spec

theorem mem_node_of_nodeOf {layout : NodeLayout} {r k : Nat} (h : nodeOf layout r = some k) :
    ∃ node, layout[k]? = some node ∧ r ∈ node := by
  unfold nodeOf at h
  rw [List.findIdx?_eq_some_iff_getElem] at h
  obtain ⟨hk, h1, -⟩ := h
  exact ⟨_, List.getElem?_eq_getElem hk, by simpa using h1⟩

theorem nodeOf_of_mem {layout : NodeLayout} (hnd : layout.flatten.Nodup) {k r : Nat}
    {node : List Nat} (hn : layout[k]? = some node) (hr : r ∈ node) : nodeOf layout r = some k := by
  obtain ⟨k', h1, -⟩ := nodeOf_eq (List.mem_flatten.2 ⟨node, List.mem_of_getElem? hn, hr⟩)
  obtain ⟨node', h3, h4⟩ := mem_node_of_nodeOf h1
  rw [h1]
  by_contra hne
  have hne : k' ≠ k := fun h => hne (by rw [h])
  have hp := (List.nodup_flatten.1 hnd).2
  rw [List.pairwise_iff_getElem] at hp
  obtain ⟨b1, rfl⟩ := List.getElem?_eq_some_iff.1 hn
  obtain ⟨b3, rfl⟩ := List.getElem?_eq_some_iff.1 h3
  rcases Nat.lt_or_gt_of_ne hne with hlt | hlt
  · exact (hp k' k b3 b1 hlt) h4 hr
  · exact (hp k k' b1 b3 hlt) hr h4

/-- **C72** The map of owners which the constructor of the mesh makes: after the claims of all ranks,
in any interleaving and for any distribution of the ranks to nodes, all nodes have the same map, and
it has the owner of every cell of the mesh. -/
theorem C72_owner_map (m : CartMesh) (hv : ValidCartMesh m) (s0 : Nat → Sched) (s1 : Sched)
    (layout : NodeLayout) (w : ClaimState) (hl : ValidLayout layout)
    (hranks : ∀ r, r ∈ layout.flatten ↔ r < m.comm.dims.prod)
    (hst : ∀ r ∈ layout.flatten, w.stackOf r = []) (hlen : w.maps.length = layout.length)
    (hm : ∀ x ∈ w.maps, (x.length : Int) = m.mh.ncellsGlobal) (claims : List Claim)
    (hc : m.IsClaims claims) :
    ∃ w' map, claimEpoch s0 s1 layout m.mh.ncellsGlobal.toNat claims w = some w' ∧
      w'.maps = List.replicate layout.length map ∧ OwnerMap m map := by
  obtain ⟨w', h1, h2, h3, h4, h5⟩ :=
    (hierarchy_owner m hv s0 s1 layout w hl hranks hst hlen hm).2 claims hc
  -- reading the map of a node
  have hread : ∀ (k : Nat) (map : List Int), w'.maps[k]? = some map → ∃ r ∈ layout.flatten,
      ∀ c : Int, 0 ≤ c → getOwner layout w' r c = map[c.toNat]? := by
    intro k map hk
    have hkl : k < layout.length := by rw [← h4]; exact (List.getElem?_eq_some_iff.1 hk).1
    have hnode := List.getElem?_eq_getElem hkl
    obtain ⟨r, hr⟩ := List.exists_mem_of_ne_nil _ (hl.2.1 _ (List.getElem_mem hkl))
    refine ⟨r, List.mem_flatten.2 ⟨_, List.getElem_mem hkl, hr⟩, ?_⟩
    intro c h0
    unfold getOwner
    rw [nodeOf_of_mem hl.1 hnode hr, Option.bind_some]
    simp only [rd]
    rw [hk, Option.bind_some]
    unfold index
    rw [if_pos h0, Option.bind_some]
  have hpos : 0 < layout.length := List.length_pos_of_ne_nil hl.2.2
  have hex : ∃ map, w'.maps[0]? = some map := ⟨_, List.getElem?_eq_getElem (by omega)⟩
  obtain ⟨map, hmap⟩ := hex
  refine ⟨w', map, h1, ?_, ?_⟩
  · rw [List.eq_replicate_iff]
    refine ⟨h4, ?_⟩
    intro x hx
    obtain ⟨k, hk⟩ := List.mem_iff_getElem?.1 hx
    obtain ⟨r, hr, hrx⟩ := hread k x hk
    obtain ⟨r0, hr0, hr0x⟩ := hread 0 map hmap
    have l1 := h5 x hx
    have l2 := h5 map (List.mem_of_getElem? hmap)
    apply List.ext_getElem?
    intro i
    by_cases hi : i < x.length
    · obtain ⟨v, hv⟩ := h3 (i : Int) (by omega) (by omega)
      have e1 := hrx (i : Int) (by omega)
      have e2 := hr0x (i : Int) (by omega)
      rw [hv r hr] at e1
      rw [hv r0 hr0] at e2
      simpa using e1.symm.trans e2
    · rw [List.getElem?_eq_none (by omega), List.getElem?_eq_none (by omega)]
  · refine ⟨h5 map (List.mem_of_getElem? hmap), ?_⟩
    intro t r c ht ho hr hcell
    obtain ⟨r0, hr0, hr0x⟩ := hread 0 map hmap
    have := isCellAt_bounds hv.mesh hcell
    rw [← hr0x c this.1]
    exact h2 t r c ht (owningRank_of_owns hv ht hr ho) hcell r0 hr0

/-! ## `cell_move` -/

/-- A list is the concatenation of its parts, up to order. -/
theorem flatMap_filter_perm {α : Type} (F : α → Nat) (l : List α) (n : Nat) :
    ((List.range n).flatMap fun c => l.filter fun p => F p == c).Perm
      (l.filter fun p => decide (F p < n)) := by
  induction n with
  | zero => simp
  | succ n ih =>
    rw [List.range_succ, List.flatMap_append]
    simp only [List.flatMap_cons, List.flatMap_nil, List.append_nil]
    refine (List.Perm.append_right _ ih).trans ?_
    have h := List.filter_append_perm (fun p => decide (F p < n))
      (l.filter fun p => decide (F p < n + 1))
    rw [List.filter_filter, List.filter_filter] at h
    refine (List.Perm.of_eq ?_).trans h
    congr 1
    · apply List.filter_congr
      intro p _
      rw [Bool.eq_iff_iff]
      simp
      omega
    · apply List.filter_congr
      intro p _
      rw [Bool.eq_iff_iff]
      simp
      omega

/-- **C72** `cell_move` on a rank of a Cartesian mesh which has only particles in its own cells: each
particle is put into the row of the cell of the mesh that contains it. No particle is lost or
duplicated and no value other than the first component of the cell id changes. -/
theorem C72_cell_move (m : CartMesh) (hv : ValidCartMesh m) (extent : ℚ) (he : 0 < extent)
    (dec : Int → ℚ) (r : Nat) (hr : r < m.comm.dims.prod) (eb : Env) (hEb : EnvOk eb) (order : Sched)
    (e e' : Env) (hE : EnvOk e) (hE' : EnvOk e') (g : Group) (hg : HybridGroupOk m extent dec g)
    (hsmall : g.hNpart.sum < 2 ^ 31) (hcells : HasOwnedCells m r g) (hown : OnOwner m extent dec r g) :
    ∃ g', binAndMove m extent dec r eb.loop order e e' g = some g' ∧ SameShape g g' ∧
      g.version < g'.version ∧ InOwnCell m extent dec r g' ∧
      (allBut isCellId g').Perm (allBut isCellId g) ∧ HybridGroupOk m extent dec g' := by
  obtain ⟨b, cells, hb, hcs, hnc⟩ := hcells
  have hgc := hg.consistent
  -- the cell of each particle
  have hex : ∀ c k, ∃ (p : List ℚ) (t : List Int) (i : Int), c < g.ncell → k < count g c →
      position dec m.mh.dims.length g c k = some p ∧ NearestCell m extent t p ∧
      m.cellBin extent b p = some i ∧ 0 ≤ i ∧ cells[i.toNat]? = some (pad3 t) := by
    intro c k
    by_cases hck : c < g.ncell ∧ k < count g c
    · obtain ⟨p, t, h1, h2, h3⟩ := hown c k hck.1 hck.2
      obtain ⟨b', cells', i, q1, q2, q3, q4, q5⟩ := cellBin_nearest hv he hr h3 h2
      rw [hb] at q1
      obtain rfl := Option.some.inj q1
      rw [hcs] at q2
      obtain rfl := Option.some.inj q2
      exact ⟨p, t, i, fun _ _ => ⟨h1, h2, q3, q4, q5⟩⟩
    · exact ⟨[], [], 0, fun h1 h2 => absurd ⟨h1, h2⟩ hck⟩
  choose pos T I hex using hex
  obtain ⟨g1, b1, b2⟩ := binCells_spec (dec := dec) (extent := extent) hEb order hgc
    (smallCounts_of_sum hsmall) hg.cell_pos hb (F := I) (fun c k hc hk =>
      ⟨pos c k, (hex c k hc hk).1, (hex c k hc hk).2.2.1⟩)
  have hg1 := b2.consistent hgc
  have hid : ∀ c k, c < g.ncell → k < count g c → cellId g1 c k = some (I c k) := by
    intro c k hc hk
    unfold cellId
    rw [b2.cellSym]
    exact b2.ids c k hc hk
  have hI : ∀ c k, c < g.ncell → k < count g c → (I c k).toNat < g.ncell := by
    intro c k hc hk
    rw [hnc]
    exact (List.getElem?_eq_some_iff.1 (hex c k hc hk).2.2.2.2).1
  obtain ⟨g2, c1, c2, c3, c4, c5⟩ := cellMove_spec hE hE' hg1 (by rw [b2.hNpart]; exact hsmall) (by
    intro c k hc hk
    rw [b2.ncell] at hc
    rw [b2.count] at hk
    have := hI c k hc hk
    have h0 := (hex c k hc hk).2.2.2.1
    exact ⟨_, hid c k hc hk, h0, by rw [b2.ncell]; omega⟩)
  have hparts : particles g1 = particlesOf g1 := rfl
  -- where a particle comes from
  have hsrc : ∀ c k, c < g2.ncell → k < count g2 c → ∃ c0 k0, c0 < g.ncell ∧ k0 < count g c0 ∧
      SameParticle g1 c0 k0 g2 c k ∧ I c0 k0 = (c : Int) := by
    intro c k hc hk
    rw [c3.ncell] at hc
    have hm := ((c5 c hc).mem_iff).1 (mem_contents hk)
    obtain ⟨⟨c0, k0⟩, hck, hv⟩ := List.mem_map.1 hm
    rw [List.mem_filter, hparts, mem_particlesOf, b2.ncell, b2.count] at hck
    refine ⟨c0, k0, hck.1.1, hck.1.2, ⟨c3.comps, c3.pos, c3.rank, c3.cell, hv.symm⟩, ?_⟩
    have := hck.2
    rw [hid c0 k0 hck.1.1 hck.1.2] at this
    simpa using this
  have hpos1 : ∃ d ∈ g1.dats, d.sym = g1.posSym ∧ m.mh.dims.length ≤ d.ncomp := by
    rw [b2.dats, b2.posSym]; exact hg.pos
  have hshape : SameShape g g2 := ⟨c3.ncell.trans b2.ncell, by rw [c3.comps, b2.dats],
    c3.pos.trans b2.posSym, c3.rank.trans b2.rankSym, c3.cell.trans b2.cellSym,
    c3.hint.trans b2.hint⟩
  have hposition : ∀ {c k c0 k0 : Nat}, SameParticle g1 c0 k0 g2 c k →
      position dec m.mh.dims.length g2 c k = position dec m.mh.dims.length g c0 k0 := by
    intro c k c0 k0 h
    rw [h.position dec hpos1, b2.position hg.cell_pos]
  refine ⟨g2, ?_, hshape, ?_, ⟨b, cells, hb, hcs, ?_⟩, ?_, ?_⟩
  · unfold binAndMove
    rw [b1, Option.bind_some, c1]
  · rw [c4, b2.version]; omega
  · intro c k hc hk
    obtain ⟨c0, k0, h1, h2, h3, h4⟩ := hsrc c k hc hk
    obtain ⟨q1, q2, -, q4, q5⟩ := hex c0 k0 h1 h2
    refine ⟨pos c0 k0, T c0 k0, by rw [hposition h3, q1], q2, ?_⟩
    rw [h4] at q5
    simpa using q5
  · rw [← b2.allBut, allBut_eq, allBut_eq, c3.comps]
    have hsel : isCellId g2 = isCellId g1 := by unfold isCellId; rw [c3.cell]
    rw [hsel]
    refine List.Perm.map _ ?_
    unfold allParticles
    rw [c3.ncell]
    refine (perm_flatMap_of fun c hc => c5 c (List.mem_range.1 hc)).trans ?_
    rw [← List.map_flatMap]
    have hp := flatMap_filter_perm (fun p : Nat × Nat => (I p.1 p.2).toNat) (particles g1) g1.ncell
    have e1 : ((List.range g1.ncell).flatMap fun (c : Nat) => (particles g1).filter fun p =>
        cellId g1 p.1 p.2 == some (c : Int)) = (List.range g1.ncell).flatMap fun c =>
        (particles g1).filter fun p => (I p.1 p.2).toNat == c := by
      apply List.flatMap_congr
      intro c _
      apply List.filter_congr
      rintro ⟨c0, k0⟩ hck
      rw [hparts, mem_particlesOf, b2.ncell, b2.count] at hck
      have h0 := (hex c0 k0 hck.1 hck.2).2.2.2.1
      rw [hid c0 k0 hck.1 hck.2, Bool.eq_iff_iff]
      simp
      omega
    have e2 : ((particles g1).filter fun p => decide ((I p.1 p.2).toNat < g1.ncell)) =
        particles g1 := by
      rw [List.filter_eq_self]
      rintro ⟨c0, k0⟩ hck
      rw [hparts, mem_particlesOf, b2.ncell, b2.count] at hck
      rw [b2.ncell]
      simpa using hI c0 k0 hck.1 hck.2
    rw [e1]
    rw [e2] at hp
    refine (hp.map _).trans (List.Perm.of_eq ?_)
    rw [hparts]
    exact (allParticles_eq g1).symm
  · refine ⟨c2, ?_, ?_, ?_, ?_, ?_, ?_, ?_, ?_⟩
    · rw [hshape.ncell]; exact hg.cells
    · rw [hshape.pos]
      exact has_comp_congr hshape.comps (List.length_pos_of_ne_nil hv.mesh.1) hg.pos
    · rw [hshape.rank]
      exact has_comp_congr hshape.comps (by omega) hg.rank
    · rw [hshape.rank, hshape.pos]; exact hg.rank_pos
    · rw [hshape.rank, hshape.cell]; exact hg.rank_cell
    · rw [hshape.cell, hshape.pos]; exact hg.cell_pos
    · intro c k hc hk
      obtain ⟨c0, k0, h1, h2, h3, h4⟩ := hsrc c k hc hk
      exact ⟨I c0 k0, by rw [h3.cellId hg1, hid c0 k0 h1 h2], by omega⟩
    · intro c k hc hk
      obtain ⟨c0, k0, h1, h2, h3, h4⟩ := hsrc c k hc hk
      rw [hposition h3]
      exact hg.inside c0 k0 h1 h2

/-! ## A step -/

/-- Selecting more values. -/
theorem allBut_or (q p : Group → Nat × Nat → Bool) (g : Group) :
    allBut (fun g sj => q g sj || p g sj) g = (allBut q g).map
      (stripVals ((flatComps g.dats).filter fun sj => !q g sj) (p g)) := by
  unfold allBut
  rw [List.map_map]
  apply List.map_congr_left
  intro ck _
  simp only [Function.comp_def, stripVals, valuesBut]
  rw [zip_map_self, List.filter_map, List.map_map, List.filter_filter]
  refine congrArg₂ _ rfl ?_
  apply List.filter_congr
  intro sj _
  simp only [Function.comp_def, Bool.not_or]
  rw [Bool.and_comm]

/-- **C72** A step of a simulation on a Cartesian mesh: `hybrid_move` and then `cell_move` on all
ranks. Afterwards every particle is on the rank, and in the row of the cell there, whose cell of the
mesh it is in. No particle is lost or duplicated and no value changes, other than the first two
components of the MPI rank and the first one of the cell id. The groups can make another step. -/
theorem C72_step (m : CartMesh) (hv : ValidCartMesh m) (extent : ℚ) (he : 0 < extent)
    (dec : Int → ℚ) (map : List Int) (hmap : OwnerMap m map) (order : Sched) (arrive : Nat → Sched)
    (fresh : Nat → List Nat) (hf : ∀ r, r < m.comm.dims.prod → (fresh r).length = m.comm.dims.prod)
    (w : HybridWorld) (hw : hybridSetup m map order arrive fresh = some w) (nReal : Nat)
    (cm : HybridComm) (hcm : ∀ r, r < m.comm.dims.prod →
      (cm.globMap r).length = m.comm.dims.prod ∧ (cm.locMap r).length = m.comm.dims.prod)
    (e : Nat → HybridEnv) (hE : ∀ r, r < m.comm.dims.prod → HybridEnvOk (e r))
    (binOrder : Nat → Sched) (e1 e2 e3 : Nat → Env)
    (hE1 : ∀ r, r < m.comm.dims.prod → EnvOk (e1 r) ∧ EnvOk (e2 r) ∧ EnvOk (e3 r))
    (g : Nat → Group) (hg : HybridOk m extent dec g)
    (hcells : ∀ r, r < m.comm.dims.prod → HasOwnedCells m r (g r)) :
    ∃ out, ((hybridMove m extent dec map w nReal cm e g).bind
        (cellMoveAll m extent dec (fun r => (e1 r).loop) binOrder e2 e3)) = some out ∧
      out.length = m.comm.dims.prod ∧
      (∀ r, r < m.comm.dims.prod → ∃ g', out[r]? = some g' ∧ SameShape (g r) g' ∧
        (g r).version < g'.version ∧ InOwnCell m extent dec r g') ∧
      (out.flatMap (allBut isRankOrCellId)).Perm
        ((List.range m.comm.dims.prod).flatMap fun r => allBut isRankOrCellId (g r)) ∧
      HybridOk m extent dec (fun r => out.getD r (g r)) := by
  obtain ⟨out, h1, h2, h3, h4, h5⟩ := C72_hybrid_move m hv extent he dec map hmap order arrive fresh
    hf w hw nReal cm hcm e hE g hg
  generalize hn : m.comm.dims.prod = n at *
  have : Inhabited Group := ⟨g 0⟩
  choose! g1 a1 a2 a3 a4 using h3
  have hget : ∀ r, r < n → out.getD r (g r) = g1 r := by
    intro r hr
    rw [List.getD_eq_getElem?_getD, a1 r hr]
    rfl
  obtain ⟨k1, k2, k3, k4⟩ := h5
  rw [hn] at k1 k2 k3 k4
  have hok1 : ∀ r, r < n → HybridGroupOk m extent dec (g1 r) := by
    intro r hr; have := k1 r hr; rwa [hget r hr] at this
  have hsum1 : ((List.range n).map fun r => (g1 r).hNpart.sum).sum < 2 ^ 31 := by
    have : ((List.range n).map fun r => (out.getD r (g r)).hNpart.sum) =
        (List.range n).map fun r => (g1 r).hNpart.sum := by
      apply List.map_congr_left
      intro r hr
      rw [hget r (List.mem_range.1 hr)]
    rwa [this] at k4
  have hmoved := fun r (hr : r < n) => C72_cell_move m hv extent he dec r (by omega) (e1 r)
    (hE1 r hr).1 (binOrder r) (e2 r) (e3 r) (hE1 r hr).2.1 (hE1 r hr).2.2 (g1 r) (hok1 r hr)
    (lt_of_le_of_lt (sum_length_le (f := fun r => (g1 r).hNpart.sum) hr) hsum1)
    (by
      obtain ⟨b, cells, q1, q2, q3⟩ := hcells r hr
      exact ⟨b, cells, q1, q2, by rw [(a2 r hr).ncell, q3]⟩) (a4 r hr)
  choose! g2 b1 b2 b3 b4 b5 b6 using hmoved
  have hout : out = (List.range n).map g1 := by
    apply List.ext_getElem?
    intro r
    by_cases hr : r < n
    · rw [a1 r hr]; simp [hr]
    · rw [List.getElem?_eq_none (by omega), List.getElem?_eq_none (by simp; omega)]
  have hshape : ∀ r, r < n → SameShape (g r) (g2 r) := fun r hr =>
    ⟨(b2 r hr).ncell.trans (a2 r hr).ncell, (b2 r hr).comps.trans (a2 r hr).comps,
      (b2 r hr).pos.trans (a2 r hr).pos, (b2 r hr).rank.trans (a2 r hr).rank,
      (b2 r hr).cell.trans (a2 r hr).cell, (b2 r hr).hint.trans (a2 r hr).hint⟩
  obtain ⟨hgg, hgcomps, hgnames, hgsmall⟩ := hg
  rw [hn] at hgg hgcomps hgnames hgsmall
  refine ⟨(List.range n).map g2, ?_, by simp, ?_, ?_, ?_⟩
  · rw [h1, Option.bind_some]
    unfold cellMoveAll
    rw [hn]
    apply mapM_of_forall
    intro r hr
    rw [List.mem_range] at hr
    simp only [rd]
    rw [a1 r hr, Option.bind_some, b1 r hr]
  · intro r hr
    refine ⟨g2 r, by simp [hr], hshape r hr, lt_trans (a3 r hr) (b3 r hr), b4 r hr⟩
  · rcases Nat.eq_zero_or_pos n with h0 | h0
    · subst h0; simp
    have hq : ∀ (p : Group → Nat × Nat → Bool) (s : List (Nat × Nat)) (q : Nat × Nat → Bool)
        (G : Nat → Group), (∀ r, r < n → allBut isRankOrCellId (G r) =
          (allBut p (G r)).map (stripVals s q)) →
        ((List.range n).flatMap fun r => allBut isRankOrCellId (G r)) =
          ((List.range n).flatMap fun r => allBut p (G r)).map (stripVals s q) := by
      intro p s q G h
      rw [List.map_flatMap]
      apply List.flatMap_congr
      intro r hr
      exact h r (List.mem_range.1 hr)
    rw [List.flatMap_map]
    -- first the cell ids
    refine List.Perm.trans (l₂ := (List.range n).flatMap fun r => allBut isRankOrCellId (g1 r)) ?_ ?_
    · apply perm_flatMap_of
      intro r hr
      rw [List.mem_range] at hr
      have e1 : ∀ x : Group, allBut isRankOrCellId x =
          allBut (fun g sj => isCellId g sj || isRank g sj) x := by
        intro x
        unfold allBut
        apply List.map_congr_left
        intro ck _
        congr 1
        funext sj
        exact Bool.or_comm _ _
      rw [e1, e1, allBut_or, allBut_or, (b2 r hr).comps]
      have s1 : isCellId (g2 r) = isCellId (g1 r) := by unfold isCellId; rw [(b2 r hr).cell]
      have s2 : isRank (g2 r) = isRank (g1 r) := by unfold isRank; rw [(b2 r hr).rank]
      rw [s1, s2]
      exact (b5 r hr).map _
    · have hstrip : ∀ G : Nat → Group, (∀ r, r < n → SameShape (g r) (G r)) → ∀ r, r < n →
          allBut isRankOrCellId (G r) = (allBut isRank (G r)).map
            (stripVals ((flatComps (g 0).dats).filter fun sj => !isRank (g 0) sj)
              (isCellId (g 0))) := by
        intro G hG r hr
        have e1 : allBut isRankOrCellId (G r) =
          allBut (fun g sj => isRank g sj || isCellId g sj) (G r) := rfl
        rw [e1, allBut_or, (hG r hr).comps, hgcomps r 0 hr h0]
        have s1 : isCellId (G r) = isCellId (g 0) := by
          unfold isCellId; rw [(hG r hr).cell, (hgnames r 0 hr h0).2.2]
        have s2 : isRank (G r) = isRank (g 0) := by
          unfold isRank; rw [(hG r hr).rank, (hgnames r 0 hr h0).2.1]
        rw [s1, s2]
      rw [hq isRank _ _ g1 (hstrip g1 a2),
        hq isRank _ _ g (hstrip g fun r _ => ⟨rfl, rfl, rfl, rfl, rfl, rfl⟩)]
      rw [hout, List.flatMap_map] at h4
      exact h4.map _
  · have hget2 : ∀ r, r < n → ((List.range n).map g2).getD r (g r) = g2 r := by
      intro r hr; simp [hr]
    constructor
    · intro r hr
      rw [hn] at hr
      rw [hget2 r hr]
      exact b6 r hr
    · intro r s hr hs
      rw [hn] at hr hs
      rw [hget2 r hr, hget2 s hs, (hshape r hr).comps, (hshape s hs).comps]
      exact hgcomps r s hr hs
    · intro r s hr hs
      rw [hn] at hr hs
      rw [hget2 r hr, hget2 s hs, (hshape r hr).pos, (hshape s hs).pos, (hshape r hr).rank,
        (hshape s hs).rank, (hshape r hr).cell, (hshape s hs).cell]
      exact hgnames r s hr hs
    · rw [hn]
      have h6 : ((List.range n).map fun r => (((List.range n).map g2).getD r (g r)).hNpart.sum) =
          (List.range n).map fun r => (g1 r).hNpart.sum := by
        apply List.map_congr_left
        intro r hr
        rw [List.mem_range] at hr
        rw [hget2 r hr, ← length_allBut isCellId (b6 r hr).consistent.len,
          ← length_allBut isCellId (hok1 r hr).consistent.len]
        exact (b5 r hr).length_eq
      rw [h6]
      exact hsum1

end NP
