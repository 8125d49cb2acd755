import Verif.Mesh.LemmasFace
import Verif.Mesh.ExamplesCart

/-!
# C40: the faces of the boundary
-/

set_option autoImplicit false

namespace NP

theorem pad3_take {m : CartMesh} (hv : Spec.ValidCartMesh m) {t : List Int}
    (ht : t.length = m.mh.dims.length) : Spec.pad3 t = t ++ List.replicate (3 - m.mh.dims.length) 0 := by
  rw [Spec.pad3, ht]

theorem onSide_length {m : CartMesh} {f : Nat} {t : List Int} (h : Spec.OnSide m f t) :
    t.length = m.mh.dims.length := by
  have := h.1.length
  simpa using this

/-- **C40** In two and three dimensions the indices `0, ..., n - 1` are one to one with the
cells on the sides of the domain: every index is the face of a cell on a side, every cell on a
side has exactly one index, other numbers are rejected. Going from an index to the tuple
(side, coordinates on the side) and back gives the index. -/
theorem C40_bijection (m : CartMesh) (hv : Spec.ValidCartMesh m)
    (hn : m.mh.dims.length = 2 ∨ m.mh.dims.length = 3) :
    (∀ id, 0 ≤ id → id < m.ncellsFaceGlobal → ∃ f t, Spec.IsFace m id f t ∧ Spec.OnSide m f t ∧
      ∀ f' t', Spec.IsFace m id f' t' → f' = f ∧ t' = t) ∧
    (∀ f t, Spec.OnSide m f t → ∃ id, 0 ≤ id ∧ id < m.ncellsFaceGlobal ∧ Spec.IsFace m id f t ∧
      ∀ id', Spec.IsFace m id' f t → id' = id) ∧
    (∀ id, ¬ (0 ≤ id ∧ id < m.ncellsFaceGlobal) → m.getFaceIdAsTuple id = none) ∧
    (∀ id face, m.getFaceIdAsTuple id = some face → m.faceLinearIndex face = some id) := by
  have hlast : ∀ id face, m.getFaceIdAsTuple id = some face → 0 ≤ id ∧ id < m.ncellsFaceGlobal := by
    intro id face h
    unfold CartMesh.getFaceIdAsTuple at h
    simp only at h
    split at h
    · rename_i hc
      rwa [(geoms_length hn).2.2] at hc
    · cases h
  have hcases : ∀ id, 0 ≤ id → id < m.ncellsFaceGlobal → ∃ f s0 s1 l0 l1, FaceDims m f s0 s1 ∧
      0 ≤ l0 ∧ l0 < s0 ∧ 0 ≤ l1 ∧ l1 < s1 ∧
      id = (m.geomsPerFace.take f).sum + (l0 + l1 * s0) ∧
      m.getFaceIdAsTuple id = some [(f : Int), l0, l1] := by
    intro id h0 h1
    obtain ⟨f, s0, s1, l0, l1, a, b, c, d, e, rfl⟩ := faceId_cases hv.mesh hn h0 h1
    exact ⟨f, s0, s1, l0, l1, a, b, c, d, e, rfl, (getFaceIdAsTuple_eq hv.mesh hn a b c d e).1⟩
  refine ⟨?_, ?_, ?_, ?_⟩
  · intro id h0 h1
    obtain ⟨f, s0, s1, l0, l1, a, b, c, d, e, -, g⟩ := hcases id h0 h1
    obtain ⟨t, t1, t2⟩ := faceCell hv.mesh hn a b c d e
    refine ⟨f, t, ⟨l0, l1, g, t1, onSide_length t2⟩, t2, ?_⟩
    rintro f' t' ⟨k0, k1, q1, q2, q3⟩
    rw [g] at q1
    simp only [Option.some.injEq, List.cons.injEq, Nat.cast_inj, and_true] at q1
    obtain ⟨rfl, rfl, rfl⟩ := q1
    rw [t1] at q2
    exact ⟨rfl, (pad3_inj (by rw [q3, onSide_length t2]) (Option.some.inj q2)).symm⟩
  · intro f t ht
    obtain ⟨s0, s1, l0, l1, a, b, c, d, e, g, g', -⟩ := cellFace hv.mesh hn ht
    obtain ⟨i1, i2, i3⟩ := getFaceIdAsTuple_eq hv.mesh hn a b c d e
    refine ⟨_, i2, i3, ⟨l0, l1, i1, g, onSide_length ht⟩, ?_⟩
    rintro id' ⟨k0, k1, q1, q2, q3⟩
    obtain ⟨j0, j1⟩ := hlast id' _ q1
    obtain ⟨f', s0', s1', l0', l1', a', b', c', d', e', rfl, g1⟩ := hcases id' j0 j1
    rw [q1] at g1
    simp only [Option.some.injEq, List.cons.injEq, Nat.cast_inj, and_true] at g1
    obtain ⟨rfl, rfl, rfl⟩ := g1
    have es0 := a.2.2.1.symm.trans a'.2.2.1
    have es1 := a.2.2.2.1.symm.trans a'.2.2.2.1
    obtain rfl := Option.some.inj es0
    obtain rfl := Option.some.inj es1
    obtain ⟨rfl, rfl⟩ := g' k0 k1 d' e' q2
    rfl
  · intro id hid
    cases h : m.getFaceIdAsTuple id with
    | none => rfl
    | some face => exact absurd (hlast id face h) hid
  · intro id face h
    obtain ⟨j0, j1⟩ := hlast id _ h
    obtain ⟨f', s0', s1', l0', l1', a', b', c', d', e', rfl, g1⟩ := hcases id j0 j1
    rw [h] at g1
    obtain rfl := Option.some.inj g1
    rw [faceLinearIndex_eq hn a' d' e']

/-- Every entry of the cache is the owner of the cell of the face. -/
def GoodFaceCache (m : CartMesh) (cache : FaceCache) : Prop :=
  ∀ id r, cache id = some r → ∃ f t, Spec.IsFace m id f t ∧ Spec.OnSide m f t ∧
    m.owningRank t = some r

/-- **C40** The owner of a face is the rank which owns the cell of the face, whatever was asked
before: `GoodFaceCache` holds of the empty cache and is kept. -/
theorem C40_owner (m : CartMesh) (hv : Spec.ValidCartMesh m)
    (hn : m.mh.dims.length = 2 ∨ m.mh.dims.length = 3) (cache : FaceCache)
    (hc : GoodFaceCache m cache) (id : Int) (f : Nat) (t : List Int)
    (h : Spec.IsFace m id f t) (hs : Spec.OnSide m f t) :
    ∃ r cache', m.owningRank t = some r ∧ m.faceOwner cache id = some (r, cache') ∧
      GoodFaceCache m cache' ∧ GoodFaceCache m (fun _ => none) := by
  obtain ⟨b1, b2, b3, b4⟩ := C40_bijection m hv hn
  obtain ⟨r, r1, r2⟩ := owningRank_spec hv hs.1 (List.replicate (3 - m.mh.dims.length) 0)
  obtain ⟨r0, r01, r02⟩ := owningRank_spec hv hs.1 []
  have hr0 : m.owningRank t = some r := by
    obtain ⟨b, q1, q2, q3, q4, q5⟩ := box_spec hv r2
    have := (q5 t [] hs.1).mp ((q5 t _ hs.1).mpr r1)
    rwa [List.append_nil] at this
  obtain ⟨l0, l1, f1, f2, f3⟩ := h
  have hid : 0 ≤ id ∧ id < m.ncellsFaceGlobal := by
    by_contra hx
    rw [b3 id hx] at f1
    cases f1
  have hnone : GoodFaceCache m (fun _ => none) := by
    intro id r h
    cases h
  unfold CartMesh.faceOwner
  rw [if_pos ⟨hn, hid⟩]
  cases hcache : cache id with
  | some r' =>
    refine ⟨r, cache, hr0, ?_, hc, hnone⟩
    obtain ⟨f', t', h1, h2, h3⟩ := hc id r' hcache
    obtain ⟨f'', t'', -, -, hu⟩ := b1 id hid.1 hid.2
    obtain ⟨-, e1⟩ := hu f' t' h1
    obtain ⟨-, e2⟩ := hu f t ⟨l0, l1, f1, f2, f3⟩
    rw [e1, ← e2, hr0] at h3
    rw [Option.some.inj h3]
  | none =>
    simp only
    rw [f1, Option.bind_some, f2, Option.bind_some, pad3_take hv f3, r1, Option.bind_some]
    refine ⟨r, _, hr0, rfl, ?_, hnone⟩
    intro id' r' h'
    simp only at h'
    split at h'
    · rename_i he
      subst he
      obtain rfl := Option.some.inj h'
      exact ⟨f, t, ⟨l0, l1, f1, f2, f3⟩, hs, hr0⟩
    · exact hc id' r' h'

/-- **C40** `get_owned_face_cells` on rank `r` lists, in ascending order, exactly the faces of
the cells which the rank owns, so every face is in the list of exactly one rank. The entry for
side `f` of the map from sides to faces has those which are on side `f`. -/
theorem C40_owned (m : CartMesh) (hv : Spec.ValidCartMesh m)
    (hn : m.mh.dims.length = 2 ∨ m.mh.dims.length = 3) (r : Nat) (hr : r < m.comm.dims.prod) :
    ∃ cache l, m.ownedFaces (fun _ => none) r = some (cache, l) ∧ GoodFaceCache m cache ∧
      l.Pairwise (· < ·) ∧
      (∀ id, id ∈ l ↔ ∃ f t, Spec.IsFace m id f t ∧ Spec.OnSide m f t ∧ Spec.Owns m r t) ∧
      ∀ f : Nat, ∃ lf, m.facesToGeoms l f = some lf ∧ lf.Pairwise (· < ·) ∧
        ∀ id, id ∈ lf ↔ id ∈ l ∧ ∃ t, Spec.IsFace m id f t := by
  obtain ⟨b1, b2, b3, b4⟩ := C40_bijection m hv hn
  obtain ⟨b, h1, h2, h3, h4, h5⟩ := box_spec hv hr
  have hb3 : b.length ≤ 3 := by rw [h2]; exact hv.ndim
  have howns : ∀ t, Spec.IsMeshCell m t → (Spec.Owns m r t ↔ m.owningRank t = some r) := by
    intro t ht
    have htl : t.length = b.length := by
      have := ht.length
      rw [h2]; simpa using this
    have h5' := h5 t [] ht
    rw [List.append_nil] at h5'
    rw [← h5']
    constructor
    · rintro ⟨b', cells, o1, o2, o3⟩
      rw [h1] at o1
      obtain rfl := Option.some.inj o1
      rw [getOwnedCells_eq hb3] at o2
      obtain rfl := Option.some.inj o2
      exact (mem_ownedCells htl).mp o3
    · intro hb
      exact ⟨b, _, h1, getOwnedCells_eq hb3, (mem_ownedCells htl).mpr hb⟩
  -- the local tuples
  have htup : ∃ tuples, m.localFaceTuples b = some tuples ∧ ∀ x ∈ tuples, ∃ (f : Nat) (s0 s1 l0 l1 : Int),
      x = [(f : Int), l0, l1] ∧ FaceDims m f s0 s1 ∧ 0 ≤ l0 ∧ l0 < s0 ∧ 0 ≤ l1 ∧ l1 < s1 := by
    have hnfe : m.mh.ncellsDimFine = 2 ^ m.mh.order := rfl
    -- the ends of the box
    have hends : ∀ (d : Nat) (p : Int × Int) (c : Int), b[d]? = some p →
        m.cellCounts[d]? = some c → 0 ≤ p.1 ∧ p.2 ≤ c := by
      intro d p c hp hc
      have hcorner : InBox b (b.map fun q => q.2 - 1) := by
        unfold InBox
        rw [List.forall₂_map_right_iff]
        apply List.forall₂_same.mpr
        intro q hq
        have := (h3 q hq).1
        omega
      have hcm := h4 _ hcorner
      have := forall₂_get hcm hc (show (b.map fun q => q.2 - 1)[d]? = some (p.2 - 1) by
        rw [List.getElem?_map, hp]; rfl)
      have h0 := (h3 p (List.mem_of_getElem? hp)).2
      omega
    unfold CartMesh.localFaceTuples
    rcases dims_cases hn with ⟨d0, d1, hd⟩ | ⟨d0, d1, d2, hd⟩
    · rw [hd] at h2
      match b, h2 with
      | [p0, p1], _ =>
        have e0 := hends 0 p0 (d0 * 2 ^ m.mh.order) rfl (by simp [CartMesh.cellCounts, hd])
        have e1 := hends 1 p1 (d1 * 2 ^ m.mh.order) rfl (by simp [CartMesh.cellCounts, hd])
        have h4 : m.numFaces = 4 := by
          simp [CartMesh.numFaces, CartMesh.ndim, MeshHierarchy.ndim, hd]
        refine ⟨_, by
          rw [h4]
          simp [rd, padBox, collectM, List.range_succ]; rfl, ?_⟩
        intro x hx
        simp only [List.mem_append, List.mem_flatMap, List.mem_map, mem_intRange] at hx
        have hfd : ∀ f, f < 4 → ∃ s0 s1, FaceDims m f s0 s1 := fun f hf =>
          faceDims_exists hv.mesh hn (by rw [h4]; exact hf)
        have hS : ∀ f s0 s1, FaceDims m f s0 s1 →
            [d0 * 2 ^ m.mh.order, d1 * 2 ^ m.mh.order, d0 * 2 ^ m.mh.order, d1 * 2 ^ m.mh.order, 0, 0][f]? =
              some s0 ∧ ([1, 1, 1, 1, 0, 0] : List Int)[f]? = some s1 := by
          rintro f s0 s1 ⟨-, -, g1, g2, -, -⟩
          unfold CartMesh.faceStrides0 at g1
          unfold CartMesh.faceStrides1 at g2
          rw [hd] at g1 g2
          exact ⟨g1, g2⟩
        rcases hx with ⟨l1, q1, l0, q2, rfl⟩ | ⟨l1, q1, l0, q2, rfl⟩ | ⟨l1, q1, l0, q2, rfl⟩ |
          ⟨l1, q1, l0, q2, rfl⟩
        · obtain ⟨s0, s1, g⟩ := hfd 0 (by omega)
          have := hS 0 s0 s1 g
          simp at this
          exact ⟨0, s0, s1, l0, l1, rfl, g, by omega, by omega, by omega, by omega⟩
        · obtain ⟨s0, s1, g⟩ := hfd 1 (by omega)
          have := hS 1 s0 s1 g
          simp at this
          exact ⟨1, s0, s1, l0, l1, rfl, g, by omega, by omega, by omega, by omega⟩
        · obtain ⟨s0, s1, g⟩ := hfd 2 (by omega)
          have := hS 2 s0 s1 g
          simp at this
          exact ⟨2, s0, s1, l0, l1, rfl, g, by omega, by omega, by omega, by omega⟩
        · obtain ⟨s0, s1, g⟩ := hfd 3 (by omega)
          have := hS 3 s0 s1 g
          simp at this
          exact ⟨3, s0, s1, l0, l1, rfl, g, by omega, by omega, by omega, by omega⟩
    · rw [hd] at h2
      match b, h2 with
      | [p0, p1, p2], _ =>
        have e0 := hends 0 p0 (d0 * 2 ^ m.mh.order) rfl (by simp [CartMesh.cellCounts, hd])
        have e1 := hends 1 p1 (d1 * 2 ^ m.mh.order) rfl (by simp [CartMesh.cellCounts, hd])
        have e2 := hends 2 p2 (d2 * 2 ^ m.mh.order) rfl (by simp [CartMesh.cellCounts, hd])
        have h4 : m.numFaces = 6 := by
          simp [CartMesh.numFaces, CartMesh.ndim, MeshHierarchy.ndim, hd]
        refine ⟨_, by
          rw [h4]
          simp [rd, padBox, collectM, List.range_succ]; rfl, ?_⟩
        intro x hx
        simp only [List.mem_append, List.mem_flatMap, List.mem_map, mem_intRange] at hx
        have hfd : ∀ f, f < 6 → ∃ s0 s1, FaceDims m f s0 s1 := fun f hf =>
          faceDims_exists hv.mesh hn (by rw [h4]; exact hf)
        have hS : ∀ f s0 s1, FaceDims m f s0 s1 →
            [d0 * 2 ^ m.mh.order, d1 * 2 ^ m.mh.order, d0 * 2 ^ m.mh.order, d1 * 2 ^ m.mh.order,
              d0 * 2 ^ m.mh.order, d0 * 2 ^ m.mh.order][f]? = some s0 ∧
            [d2 * 2 ^ m.mh.order, d2 * 2 ^ m.mh.order, d2 * 2 ^ m.mh.order, d2 * 2 ^ m.mh.order,
              d1 * 2 ^ m.mh.order, d1 * 2 ^ m.mh.order][f]? = some s1 := by
          rintro f s0 s1 ⟨-, -, g1, g2, -, -⟩
          unfold CartMesh.faceStrides0 at g1
          unfold CartMesh.faceStrides1 at g2
          rw [hd] at g1 g2
          exact ⟨g1, g2⟩
        rcases hx with ⟨l1, q1, l0, q2, rfl⟩ | ⟨l1, q1, l0, q2, rfl⟩ | ⟨l1, q1, l0, q2, rfl⟩ |
          ⟨l1, q1, l0, q2, rfl⟩ | ⟨l1, q1, l0, q2, rfl⟩ | ⟨l1, q1, l0, q2, rfl⟩
        · obtain ⟨s0, s1, g⟩ := hfd 0 (by omega)
          have := hS 0 s0 s1 g
          simp at this
          exact ⟨0, s0, s1, l0, l1, rfl, g, by omega, by omega, by omega, by omega⟩
        · obtain ⟨s0, s1, g⟩ := hfd 1 (by omega)
          have := hS 1 s0 s1 g
          simp at this
          exact ⟨1, s0, s1, l0, l1, rfl, g, by omega, by omega, by omega, by omega⟩
        · obtain ⟨s0, s1, g⟩ := hfd 2 (by omega)
          have := hS 2 s0 s1 g
          simp at this
          exact ⟨2, s0, s1, l0, l1, rfl, g, by omega, by omega, by omega, by omega⟩
        · obtain ⟨s0, s1, g⟩ := hfd 3 (by omega)
          have := hS 3 s0 s1 g
          simp at this
          exact ⟨3, s0, s1, l0, l1, rfl, g, by omega, by omega, by omega, by omega⟩
        · obtain ⟨s0, s1, g⟩ := hfd 4 (by omega)
          have := hS 4 s0 s1 g
          simp at this
          exact ⟨4, s0, s1, l0, l1, rfl, g, by omega, by omega, by omega, by omega⟩
        · obtain ⟨s0, s1, g⟩ := hfd 5 (by omega)
          have := hS 5 s0 s1 g
          simp at this
          exact ⟨5, s0, s1, l0, l1, rfl, g, by omega, by omega, by omega, by omega⟩
  obtain ⟨tuples, ht1, ht2⟩ := htup
  -- one tuple
  have hface : ∀ x ∈ tuples, ∃ id f t, m.faceLinearIndex x = some id ∧ Spec.IsFace m id f t ∧
      Spec.OnSide m f t := by
    intro x hx
    obtain ⟨f, s0, s1, l0, l1, rfl, a, b, c, d, e⟩ := ht2 x hx
    obtain ⟨i1, i2, i3⟩ := getFaceIdAsTuple_eq hv.mesh hn a b c d e
    obtain ⟨t, t1, t2⟩ := faceCell hv.mesh hn a b c d e
    exact ⟨_, f, t, faceLinearIndex_eq hn a d e, ⟨l0, l1, i1, t1, onSide_length t2⟩, t2⟩
  have hrun := runItems_invariant (step := m.ownedFaceStep r) (items := tuples)
    (s := ((fun _ => none : FaceCache), ([] : List Int)))
    (P := fun pre s => GoodFaceCache m s.1 ∧ s.2.Pairwise (· < ·) ∧ ∀ id, id ∈ s.2 ↔
      ∃ x f t, x ∈ pre ∧ m.faceLinearIndex x = some id ∧ Spec.IsFace m id f t ∧
        Spec.OnSide m f t ∧ m.owningRank t = some r)
    (by
      rintro pre x post ⟨cache, l⟩ hitems ⟨p1, p2, p3⟩
      obtain ⟨id, f, t, q1, q2, q3⟩ := hface x (by rw [hitems]; simp)
      obtain ⟨o, cache', c1, c2, c3, -⟩ := C40_owner m hv hn cache p1 id f t q2 q3
      refine ⟨(cache', if o = r then intSetInsert id l else l), by
        unfold CartMesh.ownedFaceStep
        rw [q1, Option.bind_some, c2, Option.bind_some], c3, ?_, ?_⟩
      · simp only at p2 ⊢
        split
        · exact intSetInsert_sorted p2
        · exact p2
      · simp only at p3 ⊢
        intro id'
        constructor
        · intro hin
          by_cases ho : o = r
          · rw [if_pos ho, mem_intSetInsert] at hin
            rcases hin with rfl | hin
            · exact ⟨x, f, t, by simp, q1, q2, q3, by rw [c1, ho]⟩
            · obtain ⟨x', f', t', z1, z2⟩ := (p3 id').mp hin
              exact ⟨x', f', t', by simp [z1], z2⟩
          · rw [if_neg ho] at hin
            obtain ⟨x', f', t', z1, z2⟩ := (p3 id').mp hin
            exact ⟨x', f', t', by simp [z1], z2⟩
        · rintro ⟨x', f', t', z1, z2, z3, z4, z5⟩
          rw [List.mem_append, List.mem_singleton] at z1
          rcases z1 with z1 | rfl
          · have := (p3 id').mpr ⟨x', f', t', z1, z2, z3, z4, z5⟩
            split
            · rw [mem_intSetInsert]; exact Or.inr this
            · exact this
          · rw [q1] at z2
            obtain rfl := Option.some.inj z2
            obtain ⟨l0, l1, y1, y2⟩ := q2
            have hid : 0 ≤ id ∧ id < m.ncellsFaceGlobal := by
              by_contra hx
              rw [b3 id hx] at y1
              cases y1
            obtain ⟨f'', t'', -, -, hu⟩ := b1 id hid.1 hid.2
            obtain ⟨-, e1⟩ := hu f' t' z3
            obtain ⟨-, e2⟩ := hu f t ⟨l0, l1, y1, y2⟩
            rw [e1, ← e2, c1] at z5
            rw [if_pos (Option.some.inj z5), mem_intSetInsert]
            exact Or.inl rfl)
    ⟨(by intro id r h; cases h), List.Pairwise.nil, by simp⟩
  obtain ⟨⟨cache, l⟩, r1, r2, r3, r4⟩ := hrun
  simp only at r2 r3 r4
  have hmem : ∀ id, id ∈ l ↔ ∃ f t, Spec.IsFace m id f t ∧ Spec.OnSide m f t ∧
      Spec.Owns m r t := by
    intro id
    rw [r4]
    constructor
    · rintro ⟨x, f, t, -, -, z3, z4, z5⟩
      exact ⟨f, t, z3, z4, (howns t z4.1).mpr z5⟩
    · rintro ⟨f, t, z3, z4, z5⟩
      have z5' := (howns t z4.1).mp z5
      obtain ⟨s0, s1, l0, l1, a, b', c, d, e, g, g', hin⟩ := cellFace hv.mesh hn z4
      have hbt : InBox b t := by
        rw [h5 t [] z4.1, List.append_nil]; exact z5'
      refine ⟨_, f, t, hin b hbt h2 tuples ht1, ?_, z3, z4, z5'⟩
      rw [faceLinearIndex_eq hn a d e]
      obtain ⟨i1, -⟩ := getFaceIdAsTuple_eq hv.mesh hn a b' c d e
      obtain ⟨id2, -, -, -, hu⟩ := b2 f t z4
      rw [hu _ z3, hu _ ⟨l0, l1, i1, g, onSide_length z4⟩]
  refine ⟨cache, l, ?_, r2, r3, hmem, ?_⟩
  · unfold CartMesh.ownedFaces
    have hnd : 1 < m.ndim ∧ m.ndim < 4 := by
      unfold CartMesh.ndim MeshHierarchy.ndim
      omega
    rw [if_pos hnd, h1, Option.bind_some, ht1, Option.bind_some, r1]
  · intro f
    have hcol : ∀ ix ∈ l, ((m.getFaceIdAsTuple ix).bind fun t => (rd t 0).bind fun g =>
        some (if g = (f : Int) then [ix] else [])) =
        some (if (m.getFaceIdAsTuple ix).bind (fun t => t[0]?) = some (f : Int) then [ix] else []) := by
      intro ix hix
      obtain ⟨f', t, ⟨l0, l1, q, -⟩, -⟩ := (hmem ix).mp hix
      rw [q]
      simp [rd]
    refine ⟨_, collectM_eq_flatMap hcol, ?_, ?_⟩
    · clear * - r3
      induction l with
      | nil => exact List.Pairwise.nil
      | cons x l ih =>
        rw [List.pairwise_cons] at r3
        rw [List.flatMap_cons]
        split
        · rw [List.singleton_append, List.pairwise_cons]
          refine ⟨?_, ih r3.2⟩
          intro y hy
          obtain ⟨z, hz, hyz⟩ := List.mem_flatMap.mp hy
          split at hyz
          · rw [List.mem_singleton] at hyz
            subst hyz
            exact r3.1 y hz
          · simp at hyz
        · rw [List.nil_append]; exact ih r3.2
    · intro id
      rw [List.mem_flatMap]
      constructor
      · rintro ⟨z, hz, hyz⟩
        split at hyz
        · rename_i hx
          rw [List.mem_singleton] at hyz
          subst hyz
          refine ⟨hz, ?_⟩
          obtain ⟨f', t, ⟨l0, l1, q, q'⟩, -⟩ := (hmem id).mp hz
          rw [q] at hx
          simp at hx
          subst hx
          exact ⟨t, l0, l1, q, q'⟩
        · simp at hyz
      · rintro ⟨hid, t, l0, l1, q, -⟩
        refine ⟨id, hid, ?_⟩
        rw [q]
        simp

namespace Ex

example : cartMesh.ncellsFaceGlobal = 20 := by decide
example : cartMesh.getFaceIdAsTuple 12 = some [2, 2, 0] := by decide
example : Spec.IsFace cartMesh 12 2 [2, 5] := ⟨2, 0, by decide, by decide, by decide⟩
example : Spec.OnSide cartMesh 2 [2, 5] :=
  ⟨List.Forall₂.cons (by decide) (List.Forall₂.cons (by decide) List.Forall₂.nil),
    1, true, 6, rfl, by decide, by decide⟩
example : ((cartMesh.ownedFaces (fun _ => none) 1).bind fun s => some s.2) =
    some [10, 11, 17, 18, 19] := by decide +kernel

end Ex

end NP
