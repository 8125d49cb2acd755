import Verif.Mesh.LemmasCart
import Verif.Mesh.Props

/-!
# C39 (owned cells), C37 (binning into cells), C38 (periodic boundaries)
-/

set_option autoImplicit false

namespace NP

/-- **C39** On every rank the owned cells are defined and without repetition and are cells of
the mesh. Every cell of the mesh is owned by exactly one rank, and that rank is what
`get_mesh_tuple_owning_rank` returns. -/
theorem C39_partition (m : CartMesh) (hv : Spec.ValidCartMesh m) :
    (∀ r, r < m.comm.dims.prod → ∃ b cells, m.box r = some b ∧ getOwnedCells b = some cells ∧
      cells.Nodup ∧ ∀ c ∈ cells, ∃ t, c = Spec.pad3 t ∧ Spec.IsMeshCell m t) ∧
    (∀ t, Spec.IsMeshCell m t → ∃ r, r < m.comm.dims.prod ∧ Spec.Owns m r t ∧
      m.owningRank t = some r ∧ ∀ r', r' < m.comm.dims.prod → Spec.Owns m r' t → r' = r) := by
  constructor
  · intro r hr
    obtain ⟨b, h1, h2, h3, h4, h5⟩ := box_spec hv hr
    have hb3 : b.length ≤ 3 := by rw [h2]; exact hv.ndim
    refine ⟨b, _, h1, getOwnedCells_eq hb3, ?_, ?_⟩
    · apply List.Nodup.map _ boxCells_nodup
      intro x y hxy
      simpa using hxy
    · intro c hc
      obtain ⟨t, ht, rfl⟩ := List.mem_map.mp hc
      rw [mem_boxCells] at ht
      refine ⟨t, ?_, h4 t ht⟩
      rw [Spec.pad3, ← ht.length_eq]
  · intro t ht
    have htl : t.length = m.mh.dims.length := by have := ht.length; simpa using this
    obtain ⟨r, h1, h2⟩ := owningRank_spec hv ht []
    rw [List.append_nil] at h1
    refine ⟨r, h2, ?_, h1, ?_⟩
    · obtain ⟨b, a1, a2, a3, a4, a5⟩ := box_spec hv h2
      refine ⟨b, _, a1, getOwnedCells_eq (by rw [a2]; exact hv.ndim), ?_⟩
      rw [mem_ownedCells (htl.trans a2.symm), a5 t [] ht, List.append_nil]
      exact h1
    · intro r' hr' ⟨b', cells', b1, b2, b3⟩
      obtain ⟨b, a1, a2, a3, a4, a5⟩ := box_spec hv hr'
      rw [a1] at b1
      obtain rfl := Option.some.inj b1
      rw [getOwnedCells_eq (by rw [a2]; exact hv.ndim)] at b2
      obtain rfl := Option.some.inj b2
      rw [mem_ownedCells (htl.trans a2.symm), a5 t [] ht, List.append_nil, h1] at b3
      exact (Option.some.inj b3).symm

/-- **C39** The local linear cell index: on every rank `get_global_cell_tuple_index` gives,
for the index `i`, the `i`-th owned cell, and rejects indices that are not below the number of
owned cells. -/
theorem C39_local_index (m : CartMesh) (hv : Spec.ValidCartMesh m) (r : Nat)
    (hr : r < m.comm.dims.prod) (b : List (Int × Int)) (cells : List (List Int))
    (hb : m.box r = some b) (hc : getOwnedCells b = some cells) (i : Int) :
    getGlobalCellTupleIndex b i = if 0 ≤ i then cells[i.toNat]? else none := by
  obtain ⟨b', h1, h2, h3, h4, h5⟩ := box_spec hv hr
  rw [hb] at h1
  obtain rfl := Option.some.inj h1
  have hb3 : b.length ≤ 3 := by rw [h2]; exact hv.ndim
  rw [getOwnedCells_eq hb3] at hc
  obtain rfl := Option.some.inj hc
  unfold getGlobalCellTupleIndex
  rw [getOwnedCells_eq hb3, Option.bind_some]
  by_cases h0 : 0 ≤ i
  · rw [if_pos h0]
    by_cases hi : i.toNat < (boxCells b).length
    · rw [if_pos (by rw [List.length_map]; omega), List.getElem?_map,
        ← globalCellTuple_eq (fun p hp => (h3 p hp).1) hi, Int.toNat_of_nonneg h0]
      cases globalCellTuple b i <;> rfl
    · rw [if_neg (by rw [List.length_map]; omega), List.getElem?_eq_none (by simpa using hi)]
  · rw [if_neg h0, if_neg (by omega)]

/-- The claims of all ranks, in the order in which they take effect: some interleaving of the
claims of the ranks. -/
def CartMesh.IsClaims (m : CartMesh) (claims : List Claim) : Prop :=
  ∃ per : Nat → List Claim, (∀ r, r < m.comm.dims.prod → m.claimsOf r = some (per r)) ∧
    claims.Perm ((List.range m.comm.dims.prod).flatMap per)

/-- The maps of owners after the claims of the constructor: they have an entry for every cell, all
ranks read the same one, and it is the owner of the cell of the mesh at the same place. -/
theorem hierarchy_owner (m : CartMesh) (hv : Spec.ValidCartMesh m) (s0 : Nat → Sched)
    (s1 : Sched) (layout : NodeLayout) (w : ClaimState) (hl : Spec.ValidLayout layout)
    (hranks : ∀ r, r ∈ layout.flatten ↔ r < m.comm.dims.prod)
    (hst : ∀ r ∈ layout.flatten, w.stackOf r = []) (hlen : w.maps.length = layout.length)
    (hm : ∀ x ∈ w.maps, (x.length : Int) = m.mh.ncellsGlobal) :
    (∃ claims, m.IsClaims claims) ∧
    ∀ claims, m.IsClaims claims →
      ∃ w', claimEpoch s0 s1 layout m.mh.ncellsGlobal.toNat claims w = some w' ∧
        (∀ t r c, Spec.IsMeshCell m t → m.owningRank t = some r → Spec.IsCellAt m.mh t c →
          ∀ r' ∈ layout.flatten, getOwner layout w' r' c = some (r : Int)) ∧
        (∀ c : Int, 0 ≤ c → c < m.mh.ncellsGlobal → ∃ v, ∀ r ∈ layout.flatten,
          getOwner layout w' r c = some v) ∧
        w'.maps.length = layout.length ∧
        ∀ x ∈ w'.maps, (x.length : Int) = m.mh.ncellsGlobal := by
  -- the claims of one rank
  have hper : ∀ r, r < m.comm.dims.prod → ∃ l, m.claimsOf r = some l ∧
      ∀ e, e ∈ l ↔ ∃ t c, Spec.IsMeshCell m t ∧ m.owningRank t = some r ∧
        Spec.IsCellAt m.mh t c ∧ e = ⟨r, c, 1⟩ := by
    intro r hr
    obtain ⟨b, h1, h2, h3, h4, h5⟩ := box_spec hv hr
    have hb3 : b.length ≤ 3 := by rw [h2]; exact hv.ndim
    obtain ⟨l, hl1, hl2⟩ := forAllM_exists (f := fun t => (m.mhIndex t).bind fun i =>
        some (⟨r, i, 1⟩ : Claim))
      (l := (boxCells b).map fun t => t ++ List.replicate (3 - b.length) 0)
      (fun s e => ∃ t c, s = t ++ List.replicate (3 - b.length) 0 ∧ Spec.IsMeshCell m t ∧
        m.owningRank t = some r ∧ Spec.IsCellAt m.mh t c ∧ e = ⟨r, c, 1⟩) (by
        intro s hs
        obtain ⟨t, ht, rfl⟩ := List.mem_map.mp hs
        rw [mem_boxCells] at ht
        have hmc := h4 t ht
        obtain ⟨c, hc1, hc2, -⟩ := mhIndex_spec (u := List.replicate (3 - b.length) 0) hv.mesh hmc
        refine ⟨_, by rw [hc1]; rfl, t, c, rfl, hmc, ?_, hc2, rfl⟩
        have := (h5 t [] hmc).mp ht
        rwa [List.append_nil] at this)
    refine ⟨l, ?_, fun e => ⟨fun he => ?_, ?_⟩⟩
    · unfold CartMesh.claimsOf
      rw [h1, Option.bind_some, getOwnedCells_eq hb3, Option.bind_some]
      exact hl1
    · obtain ⟨k, hk, rfl⟩ := List.getElem_of_mem he
      obtain ⟨t, c, -, x⟩ := forall₂_get hl2
        (List.getElem?_eq_getElem (by rw [hl2.length_eq]; exact hk)) (List.getElem?_eq_getElem hk)
      exact ⟨t, c, x⟩
    · rintro ⟨t, c, ht, ho, hc, rfl⟩
      have hbox : InBox b t := by
        rw [h5 t [] ht, List.append_nil]; exact ho
      have hmem : t ++ List.replicate (3 - b.length) 0 ∈
          (boxCells b).map fun t => t ++ List.replicate (3 - b.length) 0 :=
        List.mem_map.mpr ⟨t, mem_boxCells.mpr hbox, rfl⟩
      obtain ⟨k, hk, hke⟩ := List.getElem_of_mem hmem
      have hk' : k < l.length := by rw [← hl2.length_eq]; exact hk
      obtain ⟨t', c', he, ht', -, hc', heq⟩ := forall₂_get hl2 (List.getElem?_eq_getElem hk)
        (List.getElem?_eq_getElem hk')
      rw [hke] at he
      have htt : t = t' := (List.append_inj he (by
        have a1 := ht.length; have a2 := ht'.length; omega)).1
      subst htt
      rw [isCellAt_unique hv.mesh hc hc', ← heq]
      exact List.getElem_mem hk'
  choose! per hper1 hper2 using hper
  refine ⟨⟨_, per, hper1, List.Perm.refl _⟩, ?_⟩
  rintro claims ⟨per', hp1, hp2⟩
  have hmem : ∀ e, e ∈ claims ↔ ∃ r t c, r < m.comm.dims.prod ∧ Spec.IsMeshCell m t ∧
      m.owningRank t = some r ∧ Spec.IsCellAt m.mh t c ∧ e = ⟨r, c, 1⟩ := by
    intro e
    rw [hp2.mem_iff, List.mem_flatMap]
    constructor
    · rintro ⟨r, hr, he⟩
      rw [List.mem_range] at hr
      have := hp1 r hr
      rw [hper1 r hr] at this
      rw [← Option.some.inj this, hper2 r hr] at he
      obtain ⟨t, c, x⟩ := he
      exact ⟨r, t, c, hr, x⟩
    · rintro ⟨r, t, c, hr, x⟩
      refine ⟨r, by rwa [List.mem_range], ?_⟩
      have := hp1 r hr
      rw [hper1 r hr] at this
      rw [← Option.some.inj this, hper2 r hr]
      exact ⟨t, c, x⟩
  have hcast : ∀ c t, Spec.IsCellAt m.mh t c → 0 ≤ c ∧ c < (m.mh.ncellsGlobal.toNat : Int) := by
    intro c t hc
    have := isCellAt_bounds hv.mesh hc
    omega
  obtain ⟨w', e1, e2, e3, -, e4, e5⟩ := C34_owner s0 s1 layout m.mh.ncellsGlobal.toNat claims w hl hst hlen
    (fun x hx => by have := hm x hx; omega) (by
      intro e he
      obtain ⟨r, t, c, hr, -, -, hc, rfl⟩ := (hmem e).mp he
      have := hcast c t hc
      exact ⟨(hranks r).mpr hr, this.1, this.2, by simp, by simp⟩)
  have hng : (0 : Int) ≤ m.mh.ncellsGlobal := by
    cases hw : w.maps with
    | nil =>
      rw [hw] at hlen
      exact absurd (List.length_eq_zero_iff.1 hlen.symm) hl.2.2
    | cons x xs => have := hm x (by rw [hw]; simp); omega
  refine ⟨w', e1, ?_, ?_, e4, fun x hx => by have := e5 x hx; omega⟩
  rotate_left
  · intro c h0 h1
    by_cases hex : ∃ e ∈ claims, e.cell = c
    · obtain ⟨o, -, ho⟩ := e2 c h0 (by omega) hex
      exact ⟨o, ho⟩
    · exact ⟨_, e3 c h0 (by omega) fun e he h => hex ⟨e, he, h⟩⟩
  intro t r c ht ho hc r' hr'
  have hrr : r < m.comm.dims.prod := by
    obtain ⟨r0, h1, h2⟩ := owningRank_spec hv ht []
    rw [List.append_nil, ho] at h1
    rw [Option.some.inj h1]; exact h2
  have hbd := hcast c t hc
  have hthis : (⟨r, c, 1⟩ : Claim) ∈ claims := (hmem _).mpr ⟨r, t, c, hrr, ht, ho, hc, rfl⟩
  obtain ⟨o, ⟨e, he, he1, he2, -⟩, ho2⟩ := e2 c hbd.1 hbd.2 ⟨_, hthis, rfl⟩
  obtain ⟨r1, t1, c1, -, ht1, ho1, hc1, rfl⟩ := (hmem e).mp he
  simp only at he1 he2
  subst he1 he2
  rw [isCellAt_unique' hv.mesh hc hc1, ho1] at ho
  rw [ho2 r' hr', Option.some.inj ho]

/-- **C39** The mesh hierarchy agrees: after the claims made by the constructor on all ranks,
in any interleaving, every rank reads for each cell of the hierarchy the rank which owns the
cell of the mesh at the same place. -/
theorem C39_hierarchy_owner (m : CartMesh) (hv : Spec.ValidCartMesh m) (s0 : Nat → Sched)
    (s1 : Sched) (layout : NodeLayout) (w : ClaimState) (hl : Spec.ValidLayout layout)
    (hranks : ∀ r, r ∈ layout.flatten ↔ r < m.comm.dims.prod)
    (hst : ∀ r ∈ layout.flatten, w.stackOf r = []) (hlen : w.maps.length = layout.length)
    (hm : ∀ x ∈ w.maps, (x.length : Int) = m.mh.ncellsGlobal) :
    (∃ claims, m.IsClaims claims) ∧
    ∀ claims, m.IsClaims claims →
      ∃ w', claimEpoch s0 s1 layout m.mh.ncellsGlobal.toNat claims w = some w' ∧
        ∀ t r c, Spec.IsMeshCell m t → m.owningRank t = some r → Spec.IsCellAt m.mh t c →
          ∀ r' ∈ layout.flatten, getOwner layout w' r' c = some (r : Int) := by
  obtain ⟨h1, h2⟩ := hierarchy_owner m hv s0 s1 layout w hl hranks hst hlen hm
  refine ⟨h1, fun claims hc => ?_⟩
  obtain ⟨w', h3, h4, -⟩ := h2 claims hc
  exact ⟨w', h3, h4⟩

/-- **C37** A position in a cell which the rank owns gets the local linear index of that
cell. -/
theorem C37_cell (m : CartMesh) (hv : Spec.ValidCartMesh m) (extent : ℚ) (he : 0 < extent)
    (r : Nat) (hr : r < m.comm.dims.prod) (t : List Int) (ht : Spec.IsMeshCell m t)
    (ho : Spec.Owns m r t) (p : List ℚ) (hp : Spec.InMeshCell m extent t p) (q : List ℚ) :
    ∃ b i, m.box r = some b ∧ m.cellBin extent b (p ++ q) = some i ∧
      getGlobalCellTupleIndex b i = some (Spec.pad3 t) := by
  obtain ⟨b, h1, h2, h3, h4, h5⟩ := box_spec hv hr
  have hb3 : b.length ≤ 3 := by rw [h2]; exact hv.ndim
  have htl : t.length = m.mh.dims.length := by have := ht.length; simpa using this
  obtain ⟨b', cells, o1, o2, o3⟩ := ho
  rw [h1] at o1
  obtain rfl := Option.some.inj o1
  rw [getOwnedCells_eq hb3] at o2
  obtain rfl := Option.some.inj o2
  have hbox := (mem_ownedCells (htl.trans h2.symm)).mp o3
  have hne : b ≠ [] := by
    intro hb
    rw [hb] at h2
    have := List.length_pos_of_ne_nil hv.mesh.1
    simp at h2
    omega
  -- the cell indices in each dimension
  have hbins : ∀ (b : List (Int × Int)) (t : List Int) (p : List ℚ), InBox b t →
      Spec.InMeshCell m extent t p →
      binDims (extent / 2 ^ m.mh.order) (2 ^ m.mh.order / extent) b (p ++ q) =
        some (List.zipWith (fun (bb : Int × Int) x => x - bb.1) b t) := by
    intro b
    induction b with
    | nil => intro t p hb _; cases hb; rfl
    | cons bb b ih =>
      intro t p hb hp
      obtain ⟨x, xs, hx, hxs, rfl⟩ := List.forall₂_cons_left_iff.mp hb
      obtain ⟨y, ys, hy, hys, rfl⟩ := List.forall₂_cons_left_iff.mp hp
      simp only [List.cons_append, binDims]
      rw [ih xs ys hxs hys, Option.bind_some]
      have hpow : (0 : ℚ) < 2 ^ m.mh.order := by positivity
      have hinv : extent / 2 ^ m.mh.order * (2 ^ m.mh.order / extent) = 1 := by field_simp
      have hipos : 0 < 2 ^ m.mh.order / extent := by positivity
      have hc : truncZ ((y - bb.1 * (extent / 2 ^ m.mh.order)) * (2 ^ m.mh.order / extent)) =
          x - bb.1 := by
        have e1 : (y - bb.1 * (extent / 2 ^ m.mh.order)) * (2 ^ m.mh.order / extent) =
            y * (2 ^ m.mh.order / extent) - bb.1 := by
          rw [sub_mul, mul_assoc, hinv, mul_one]
        have l1 := mul_le_mul_of_nonneg_right hy.1 hipos.le
        have l2 := mul_lt_mul_of_pos_right hy.2 hipos
        rw [mul_assoc, hinv, mul_one] at l1 l2
        have hnn : (0 : ℚ) ≤ (x : ℚ) - bb.1 := by
          have : (bb.1 : ℚ) ≤ x := by exact_mod_cast hx.1
          linarith
        rw [e1, truncZ_of_nonneg (by linarith), Int.floor_eq_iff]
        push_cast
        constructor <;> linarith
      simp only [hc]
      rw [if_neg (by omega), if_neg (by omega)]
      rfl
  -- the linear index
  have hloc : Spec.InRange (boxWidths b) (List.zipWith (fun (bb : Int × Int) x => x - bb.1) b t) := by
    clear * - hbox
    induction hbox with
    | nil => exact List.Forall₂.nil
    | cons hx _ ih => exact List.Forall₂.cons (by beta_reduce; omega) ih
  refine ⟨b, horner (boxWidths b) (List.zipWith (fun (bb : Int × Int) x => x - bb.1) b t), h1, ?_, ?_⟩
  · unfold CartMesh.cellBin CartMesh.ndim MeshHierarchy.ndim
    rw [if_pos ⟨List.length_pos_of_ne_nil hv.mesh.1, by have := hv.ndim; omega⟩,
      hbins b t p hbox hp, Option.bind_some, radixToLinear_eq (by simpa [boxWidths] using hne)
        (by rw [hloc.length])]
  · obtain ⟨g1, g2⟩ := horner_bounds hloc
    rw [← boxCells_length (fun p hp => (h3 p hp).1)] at g2
    unfold getGlobalCellTupleIndex
    rw [getOwnedCells_eq hb3, Option.bind_some, if_pos (by rw [List.length_map]; omega)]
    have hg : ∀ (b : List (Int × Int)) (t : List Int), InBox b t →
        globalCellTuple b (horner (boxWidths b)
          (List.zipWith (fun (bb : Int × Int) x => x - bb.1) b t)) = some t := by
      intro b t hb
      induction hb with
      | nil => rfl
      | @cons bb x b t hx hr ih =>
        have hin : Spec.InRange (boxWidths b)
            (List.zipWith (fun (bb : Int × Int) x => x - bb.1) b t) := by
          clear * - hr
          induction hr with
          | nil => exact List.Forall₂.nil
          | cons hx _ ih => exact List.Forall₂.cons (by beta_reduce; omega) ih
        have hh := (horner_bounds hin).1
        simp only [boxWidths, List.map_cons, List.zipWith_cons_cons, horner, globalCellTuple]
        simp only [boxWidths] at ih hh
        generalize horner (List.map (fun p : Int × Int => p.2 - p.1) b)
          (List.zipWith (fun (bb : Int × Int) x => x - bb.1) b t) = k at *
        have hw : 0 < bb.2 - bb.1 := by omega
        have hnn : 0 ≤ (bb.2 - bb.1) * k := mul_nonneg (by omega) hh
        have hm1 : (x - bb.1 + (bb.2 - bb.1) * k).tmod (bb.2 - bb.1) = x - bb.1 := by
          rw [Int.tmod_eq_emod_of_nonneg (by omega), Int.add_mul_emod_self_left,
            Int.emod_eq_of_lt (by omega) (by omega)]
        rw [if_neg (by omega)]
        first
        | rw [hm1]
        | rw [show (bb.2 - bb.1) * k + (x - bb.1) = x - bb.1 + (bb.2 - bb.1) * k by ring, hm1]
        rw [add_sub_cancel_left, Int.mul_tdiv_cancel_left _ (by omega), ih, Option.bind_some]
        congr 2
        omega
    rw [hg b t hbox, Option.bind_some, Spec.pad3, htl, h2]

/-- **C37** Whatever the position, the cell id that is written is the index of a cell which the
rank owns. -/
theorem C37_in_range (m : CartMesh) (hv : Spec.ValidCartMesh m) (extent : ℚ)
    (r : Nat) (hr : r < m.comm.dims.prod) (p : List ℚ) (hp : m.mh.dims.length ≤ p.length) :
    ∃ b cells i, m.box r = some b ∧ getOwnedCells b = some cells ∧
      m.cellBin extent b p = some i ∧ 0 ≤ i ∧ i < cells.length := by
  obtain ⟨b, h1, h2, h3, h4, h5⟩ := box_spec hv hr
  have hb3 : b.length ≤ 3 := by rw [h2]; exact hv.ndim
  have hne : b ≠ [] := by
    intro hb
    rw [hb] at h2
    have := List.length_pos_of_ne_nil hv.mesh.1
    simp at h2
    omega
  have hbins : ∀ (b : List (Int × Int)) (p : List ℚ), (∀ q ∈ b, q.1 < q.2) →
      b.length ≤ p.length →
      ∃ cs, binDims (extent / 2 ^ m.mh.order) (2 ^ m.mh.order / extent) b p = some cs ∧
        Spec.InRange (boxWidths b) cs := by
    intro b
    induction b with
    | nil => intro p _ _; exact ⟨[], rfl, List.Forall₂.nil⟩
    | cons bb b ih =>
      intro p hb hl
      match p, hl with
      | y :: ys, hl =>
        obtain ⟨cs, c1, c2⟩ := ih ys (fun q hq => hb q (by simp [hq])) (by simpa using hl)
        have := hb bb (by simp)
        simp only [binDims]
        rw [c1, Option.bind_some]
        refine ⟨_, rfl, List.Forall₂.cons ?_ c2⟩
        beta_reduce; split_ifs <;> omega
  obtain ⟨cs, c1, c2⟩ := hbins b p (fun q hq => (h3 q hq).1) (by omega)
  obtain ⟨g1, g2⟩ := horner_bounds c2
  rw [← boxCells_length (fun p hp => (h3 p hp).1)] at g2
  refine ⟨b, _, horner (boxWidths b) cs, h1, getOwnedCells_eq hb3, ?_, g1, ?_⟩
  · unfold CartMesh.cellBin CartMesh.ndim MeshHierarchy.ndim
    rw [if_pos ⟨List.length_pos_of_ne_nil hv.mesh.1, by have := hv.ndim; omega⟩, c1,
      Option.bind_some, radixToLinear_eq (by simpa [boxWidths] using hne) (by rw [c2.length])]
  · rw [List.length_map]; exact g2

/-! ## Periodic boundaries -/

/-- One coordinate: inside afterwards, moved by a multiple of the extent, not moved if it was
inside. -/
theorem wrapCoord_spec {e : ℚ} (he : 0 < e) (p : ℚ) :
    0 ≤ wrapCoord e (1 / e) p ∧ wrapCoord e (1 / e) p < e ∧
    (∃ k : Int, wrapCoord e (1 / e) p = p + k * e) ∧
    (0 ≤ p → p < e → wrapCoord e (1 / e) p = p) := by
  have hx : 0 ≤ p + (((|truncZ (p * (1 / e))| : Int) : ℚ) + 2) * e := by
    have h1 : -(((|truncZ (p * (1 / e))| : Int) : ℚ) + 1) ≤ p * (1 / e) := by
      unfold truncZ
      split
      · rename_i h
        have : (0 : ℚ) ≤ ((|⌊p * (1 / e)⌋| : Int) : ℚ) := by exact_mod_cast abs_nonneg _
        linarith
      · have h2 := Int.ceil_lt_add_one (p * (1 / e))
        have h3 : -((|⌈p * (1 / e)⌉| : Int) : ℚ) ≤ (⌈p * (1 / e)⌉ : ℚ) := by
          exact_mod_cast neg_abs_le _
        linarith
    have h2 := mul_le_mul_of_nonneg_right h1 he.le
    have h3 : p * (1 / e) * e = p := by field_simp
    rw [h3] at h2
    linarith
  set x := p + (((|truncZ (p * (1 / e))| : Int) : ℚ) + 2) * e with hxdef
  have hw : wrapCoord e (1 / e) p = x - (⌊x / e⌋ : ℚ) * e := by
    unfold wrapCoord fmodQ
    simp only
    rw [← hxdef, truncZ_of_nonneg (by positivity)]
  have hd : x / e * e = x := by field_simp
  have h1 := mul_le_mul_of_nonneg_right (Int.floor_le (x / e)) he.le
  have h2 := mul_lt_mul_of_pos_right (Int.lt_floor_add_one (x / e)) he
  rw [hd] at h1 h2
  refine ⟨by rw [hw]; linarith, by rw [hw]; linarith, ?_, ?_⟩
  · refine ⟨|truncZ (p * (1 / e))| + 2 - ⌊x / e⌋, ?_⟩
    rw [hw, hxdef]
    push_cast
    ring
  · intro p0 p1
    have hq : 0 ≤ p * (1 / e) := by positivity
    have hq1 : p * (1 / e) < 1 := by rw [mul_one_div, div_lt_one he]; exact p1
    have ht : truncZ (p * (1 / e)) = 0 := by
      rw [truncZ_of_nonneg hq, Int.floor_eq_iff]
      push_cast
      constructor <;> linarith
    have hx2 : x = p + 2 * e := by rw [hxdef, ht]; norm_num
    have hf : ⌊x / e⌋ = 2 := by
      rw [hx2, Int.floor_eq_iff]
      push_cast
      constructor
      · rw [le_div_iff₀ he]; linarith
      · rw [div_lt_iff₀ he]; linarith
    rw [hw, hf, hx2]
    push_cast
    ring

/-- **C38** After `CartesianPeriodic::execute` every coordinate is in `[0, extent)`, is the
old coordinate plus an integer multiple of the extent, and is the old coordinate if that was
in `[0, extent)`. Components beyond the number of dimensions (`rest`) keep their value. -/
theorem C38_wrap (m : CartMesh) (hm : Spec.ValidMesh m.mh) (extent : ℚ) (he : 0 < extent)
    (p rest : List ℚ) (hp : p.length = m.mh.dims.length) :
    ∃ p', periodicStep (m.globalExtents extent) (p ++ rest) = some (p' ++ rest) ∧
      p'.length = p.length ∧
      ∀ (d : Nat) (n : Int) (x x' : ℚ), m.mh.dims[d]? = some n → p[d]? = some x → p'[d]? = some x' →
        0 ≤ x' ∧ x' < extent * n ∧ (∃ k : Int, x' = x + k * (extent * n)) ∧
        (0 ≤ x → x < extent * n → x' = x) := by
  have hpos := hm.2
  unfold CartMesh.globalExtents
  generalize m.mh.dims = ds at *
  clear hm
  induction ds generalizing p with
  | nil =>
    have : p = [] := List.length_eq_zero_iff.mp hp
    subst this
    exact ⟨[], rfl, rfl, by simp⟩
  | cons n ds ih =>
    match p, hp with
    | x :: p, hp =>
      obtain ⟨p', h1, h2, h3⟩ := ih p (by simpa using hp) (fun d hd => hpos d (by simp [hd]))
      have hn : (0 : ℚ) < n := by exact_mod_cast hpos n (by simp)
      have hw := wrapCoord_spec (e := extent * n) (by positivity) x
      refine ⟨wrapCoord (extent * n) (1 / (extent * n)) x :: p', ?_, by simp [h2], ?_⟩
      · simp only [List.map_cons, List.cons_append, periodicStep]
        rw [h1, Option.bind_some]
      · intro d n' y y' hn' hy hy'
        cases d with
        | zero =>
          simp only [List.getElem?_cons_zero, Option.some.injEq] at hn' hy hy'
          subst hn' hy hy'
          exact hw
        | succ d =>
          simp only [List.getElem?_cons_succ] at hn' hy hy'
          exact h3 d n' y y' hn' hy hy'

/-- **C38** The variant with masks does the same in the dimensions with a mask that is not
zero and leaves the coordinate in the other dimensions as it is. -/
theorem C38_wrap_masked (m : CartMesh) (hm : Spec.ValidMesh m.mh) (extent : ℚ) (he : 0 < extent)
    (masks : List Int) (hk : m.mh.dims.length ≤ masks.length)
    (p rest : List ℚ) (hp : p.length = m.mh.dims.length) :
    ∃ p', periodicMaskStep (m.globalExtents extent) masks (p ++ rest) = some (p' ++ rest) ∧
      p'.length = p.length ∧
      ∀ (d : Nat) (n k : Int) (x x' : ℚ), m.mh.dims[d]? = some n → masks[d]? = some k →
        p[d]? = some x → p'[d]? = some x' →
        (k = 0 → x' = x) ∧
        (k ≠ 0 → 0 ≤ x' ∧ x' < extent * n ∧ (∃ k : Int, x' = x + k * (extent * n)) ∧
          (0 ≤ x → x < extent * n → x' = x)) := by
  have hpos := hm.2
  unfold CartMesh.globalExtents
  generalize m.mh.dims = ds at *
  clear hm
  induction ds generalizing p masks with
  | nil =>
    have : p = [] := List.length_eq_zero_iff.mp hp
    subst this
    exact ⟨[], by simp [periodicMaskStep], rfl, by simp⟩
  | cons n ds ih =>
    match p, masks, hp, hk with
    | x :: p, k :: masks, hp, hk =>
      obtain ⟨p', h1, h2, h3⟩ := ih masks p (by simpa using hk) (by simpa using hp)
        (fun d hd => hpos d (by simp [hd]))
      have hn : (0 : ℚ) < n := by exact_mod_cast hpos n (by simp)
      have hw := wrapCoord_spec (e := extent * n) (by positivity) x
      refine ⟨(if k ≠ 0 then wrapCoord (extent * n) (1 / (extent * n)) x else x) :: p', ?_,
        by simp [h2], ?_⟩
      · simp only [List.map_cons, List.cons_append, periodicMaskStep]
        rw [h1, Option.bind_some]
      · intro d n' k' y y' hn' hk' hy hy'
        cases d with
        | zero =>
          simp only [List.getElem?_cons_zero, Option.some.injEq] at hn' hk' hy hy'
          subst hn' hk' hy hy'
          constructor
          · intro h0; rw [if_neg (by simpa using h0)]
          · intro h0; rw [if_pos h0]; exact hw
        | succ d =>
          simp only [List.getElem?_cons_succ] at hn' hk' hy hy'
          exact h3 d n' k' y y' hn' hk' hy hy'

end NP
