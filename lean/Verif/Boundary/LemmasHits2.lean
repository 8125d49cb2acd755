import Verif.Boundary.LemmasHits

/-!
# Lemmas on the registration of faces: owned faces
-/

set_option autoImplicit false

namespace NP

open Spec

theorem owns_iff {m : CartMesh} (hv : ValidCartMesh m) {r : Nat} (hr : r < m.comm.dims.prod) {t : List Int}
    (ht : IsMeshCell m t) : Owns m r t ↔ m.owningRank t = some r := by
  obtain ⟨b, h1, h2, h3, h4, h5⟩ := box_spec hv hr
  have hb3 : b.length ≤ 3 := by rw [h2]; exact hv.ndim
  have htl : t.length = b.length := by
    have := ht.length
    rw [h2]; simpa using this
  have h5' := h5 t [] ht
  rw [List.append_nil] at h5'
  rw [← h5']
  constructor
  · rintro ⟨b', cells, o1, o2, o3⟩
    rw [h1] at o1
    obtain rfl := Option.some.inj o1
    rw [getOwnedCells_eq hb3] at o2
    obtain rfl := Option.some.inj o2
    exact (mem_ownedCells htl).mp o3
  · intro hb
    exact ⟨b, _, h1, getOwnedCells_eq hb3, (mem_ownedCells htl).mpr hb⟩

theorem face_unique {m : CartMesh} (hv : ValidCartMesh m) (hn : m.mh.dims.length = 2 ∨ m.mh.dims.length = 3)
    {id : Int} {f f' : Nat} {t t' : List Int} (h : IsFace m id f t) (h' : IsFace m id f' t') :
    f = f' ∧ t = t' := by
  obtain ⟨b1, b2, b3, b4⟩ := C40_bijection m hv hn
  have hid : 0 ≤ id ∧ id < m.ncellsFaceGlobal := by
    by_contra hx
    obtain ⟨l0, l1, f1, -⟩ := h
    rw [b3 id hx] at f1
    cases f1
  obtain ⟨f0, t0, -, -, hu⟩ := b1 id hid.1 hid.2
  obtain ⟨a1, a2⟩ := hu f t h
  obtain ⟨c1, c2⟩ := hu f' t' h'
  exact ⟨a1.trans c1.symm, a2.trans c2.symm⟩

theorem numFaces_eq {m : CartMesh} (hn : m.mh.dims.length = 2 ∨ m.mh.dims.length = 3) :
    m.numFaces = 2 * m.mh.dims.length := by
  unfold CartMesh.numFaces CartMesh.ndim MeshHierarchy.ndim
  rcases hn with h | h <;> simp [h]

theorem hitOwned_spec {m : CartMesh} (hv : ValidCartMesh m)
    (hn : m.mh.dims.length = 2 ∨ m.mh.dims.length = 3) {groups : List (Int × List Int)}
    (hg : GroupsOk m groups) {g : Int × List Int} (hm : g ∈ groups) {l : List Int} {r : Nat}
    (h1 : ∀ id, id ∈ l ↔ ∃ f t, IsFace m id f t ∧ OnSide m f t ∧ Owns m r t)
    (h2 : ∀ f : Nat, ∃ lf, m.facesToGeoms l f = some lf ∧ lf.Pairwise (· < ·) ∧
      ∀ id, id ∈ lf ↔ id ∈ l ∧ ∃ t, IsFace m id f t) :
    ∃ faces, hitOwned m g l = some faces ∧ faces.Nodup ∧ ∀ id, id ∈ faces ↔ GroupFace m g r id := by
  choose lf hlf hpw hmem using h2
  have hside : ∀ f ∈ g.2, hitSide m l f = some (lf f.toNat) := by
    intro f hf
    obtain ⟨a, b⟩ := hg.sides g hm f hf
    unfold hitSide
    rw [if_pos ⟨a, by rw [numFaces_eq hn]; push_cast; exact b⟩, ← hlf f.toNat, Int.toNat_of_nonneg a]
  refine ⟨g.2.flatMap fun f => lf f.toNat, ?_, ?_, ?_⟩
  · unfold hitOwned
    rw [if_neg (show ¬ g.1 = wallMask from hg.label_ok g hm), collectM_eq_flatMap hside]
  · rw [List.nodup_flatMap]
    refine ⟨fun f hf => (hpw _).imp fun h => ne_of_lt h, ?_⟩
    have hnd := hg.once g hm
    refine (List.Pairwise.imp_of_mem (R := fun a b => a ≠ b) ?_ hnd)
    intro a b ha hb hne id hia hib
    obtain ⟨t, ht⟩ := ((hmem _ _).1 hia).2
    obtain ⟨t', ht'⟩ := ((hmem _ _).1 hib).2
    have := (face_unique hv hn ht ht').1
    have h1 := (hg.sides g hm a ha).1
    have h2 := (hg.sides g hm b hb).1
    omega
  · intro id
    rw [List.mem_flatMap]
    constructor
    · rintro ⟨f, hf, hid⟩
      obtain ⟨hl, t, ht⟩ := (hmem _ _).1 hid
      obtain ⟨f', t', q1, q2, q3⟩ := (h1 id).1 hl
      obtain ⟨rfl, rfl⟩ := face_unique hv hn ht q1
      refine ⟨f.toNat, t, ?_, q1, q2, q3⟩
      rw [Int.toNat_of_nonneg (hg.sides g hm f hf).1]; exact hf
    · rintro ⟨f, t, hf, q1, q2, q3⟩
      refine ⟨f, hf, ?_⟩
      rw [Int.toNat_natCast, hmem]
      exact ⟨(h1 id).2 ⟨f, t, q1, q2, q3⟩, t, q1⟩

/-- The owned faces of all groups and ranks. -/
def OwnedOk (m : CartMesh) (groups : List (Int × List Int)) (owned : List (List (List Int))) : Prop :=
  owned.length = groups.length ∧ ∀ (j : Nat) g ow, groups[j]? = some g → owned[j]? = some ow →
    ow.length = m.comm.dims.prod ∧ FacesOwned ow ∧
    ∀ (r : Nat) faces, ow[r]? = some faces → ∀ id, id ∈ faces ↔ GroupFace m g r id

theorem facesOwned_of {m : CartMesh} (hv : ValidCartMesh m)
    (hn : m.mh.dims.length = 2 ∨ m.mh.dims.length = 3) {g : Int × List Int} {O : Nat → List Int}
    (h : ∀ r < m.comm.dims.prod, (O r).Nodup ∧ ∀ id, id ∈ O r ↔ GroupFace m g r id) :
    FacesOwned ((List.range m.comm.dims.prod).map O) := by
  unfold FacesOwned
  rw [List.nodup_flatten]
  constructor
  · intro l hl
    obtain ⟨r, hr, rfl⟩ := List.mem_map.1 hl
    exact (h r (List.mem_range.1 hr)).1
  · rw [List.pairwise_map]
    refine List.Pairwise.imp_of_mem (R := fun a b => a < b) ?_ List.pairwise_lt_range
    intro a b ha hb hlt id hia hib
    have ha := List.mem_range.1 ha
    have hb := List.mem_range.1 hb
    obtain ⟨f, t, -, p1, p2, p3⟩ := ((h a ha).2 id).1 hia
    obtain ⟨f', t', -, q1, q2, q3⟩ := ((h b hb).2 id).1 hib
    obtain ⟨rfl, rfl⟩ := face_unique hv hn p1 q1
    rw [owns_iff hv ha p2.1] at p3
    rw [owns_iff hv hb p2.1, p3] at q3
    have := Option.some.inj q3
    omega

theorem hitNew_spec {m : CartMesh} (hv : ValidCartMesh m)
    (hn : m.mh.dims.length = 2 ∨ m.mh.dims.length = 3) {groups : List (Int × List Int)}
    (hg : GroupsOk m groups) :
    ∃ C owned, hitNew m groups = some (⟨List.replicate m.comm.dims.prod
        (groups.map fun _ => BlockedTree.create Int), (List.range m.comm.dims.prod).map C,
        owned.map fun o => o.map (surfNew o.length)⟩, owned) ∧
      (∀ r < m.comm.dims.prod, GoodFaceCache m (C r)) ∧ OwnedOk m groups owned := by
  have hex : ∀ r, ∃ (c : FaceCache) (l : List Int), r < m.comm.dims.prod →
      m.ownedFaces (fun _ => none) r = some (c, l) ∧ GoodFaceCache m c ∧
      (∀ id, id ∈ l ↔ ∃ f t, IsFace m id f t ∧ OnSide m f t ∧ Owns m r t) ∧
      ∀ f : Nat, ∃ lf, m.facesToGeoms l f = some lf ∧ lf.Pairwise (· < ·) ∧
        ∀ id, id ∈ lf ↔ id ∈ l ∧ ∃ t, IsFace m id f t := by
    intro r
    by_cases hr : r < m.comm.dims.prod
    · obtain ⟨c, l, a1, a2, -, a3, a4⟩ := C40_owned m hv hn r hr
      exact ⟨c, l, fun _ => ⟨a1, a2, a3, a4⟩⟩
    · exact ⟨fun _ => none, [], fun h => absurd h hr⟩
  choose C L hCL using hex
  have hos : (List.range m.comm.dims.prod).mapM (fun r => m.ownedFaces (fun _ => none) r) =
      some ((List.range m.comm.dims.prod).map fun r => (C r, L r)) :=
    mapM_of_forall fun r hr => (hCL r (List.mem_range.1 hr)).1
  have hO : ∀ g : Int × List Int, ∀ r, ∃ faces, g ∈ groups → r < m.comm.dims.prod →
      hitOwned m g (L r) = some faces ∧ faces.Nodup ∧ ∀ id, id ∈ faces ↔ GroupFace m g r id := by
    intro g r
    by_cases hc : g ∈ groups ∧ r < m.comm.dims.prod
    · obtain ⟨-, -, b1, b2⟩ := hCL r hc.2
      obtain ⟨faces, hf⟩ := hitOwned_spec hv hn hg hc.1 b1 b2
      exact ⟨faces, fun _ _ => hf⟩
    · exact ⟨[], fun h1 h2 => absurd ⟨h1, h2⟩ hc⟩
  choose O hO using hO
  refine ⟨C, groups.map fun g => (List.range m.comm.dims.prod).map (O g), ?_,
    fun r hr => (hCL r hr).2.1, by simp, ?_⟩
  · unfold hitNew
    rw [if_pos hn, hos, Option.bind_some]
    have : (groups.mapM fun g => ((List.range m.comm.dims.prod).map fun r => (C r, L r)).mapM
        fun o => hitOwned m g o.2) = some (groups.map fun g => (List.range m.comm.dims.prod).map (O g)) := by
      refine mapM_of_forall fun g hgm => ?_
      rw [List.mapM_map]
      exact mapM_of_forall fun r hr => (hO g r hgm (List.mem_range.1 hr)).1
    rw [this, Option.bind_some]
    simp only [List.map_map, Option.some.injEq, Prod.mk.injEq, HitWorld.mk.injEq, and_true]
    refine ⟨?_, rfl⟩
    rw [List.eq_replicate_iff]
    refine ⟨by simp, ?_⟩
    intro b hb
    obtain ⟨r, -, rfl⟩ := List.mem_map.1 hb
    rfl
  · intro j g ow hj how
    rw [List.getElem?_map, hj] at how
    obtain rfl := Option.some.inj how
    have hgm := List.mem_of_getElem? hj
    refine ⟨by simp, facesOwned_of hv hn fun r hr => (hO g r hgm hr).2, ?_⟩
    intro r faces hr
    have hlt : r < m.comm.dims.prod := by
      have := (List.getElem?_eq_some_iff.1 hr).1
      simpa using this
    rw [get_table _ hlt] at hr
    obtain rfl := Option.some.inj hr
    exact (hO g r hgm hlt).2.2

theorem ownedOn_face {m : CartMesh} (hv : ValidCartMesh m) {groups : List (Int × List Int)}
    {owned : List (List (List Int))} (ho : OwnedOk m groups owned) {j : Nat} {g : Int × List Int}
    {ow : List (List Int)} (hj : groups[j]? = some g) (how : owned[j]? = some ow) {q : Nat} {id : Int}
    (h : OwnedOn m g.2 q id) : ∃ faces, ow[q]? = some faces ∧ id ∈ faces := by
  obtain ⟨f, t, h1, h2, h3, h4⟩ := h
  obtain ⟨hl, -, hf⟩ := ho.2 j g ow hj how
  obtain ⟨r, r1, r2⟩ := owningRank_spec hv h3.1 []
  rw [List.append_nil, h4] at r1
  obtain rfl := Option.some.inj r1
  refine ⟨ow[q]'(by omega), List.getElem?_eq_getElem _, ?_⟩
  rw [hf q _ (List.getElem?_eq_getElem _)]
  exact ⟨f, t, h1, h2, h3, (owns_iff hv r2 h3.1).2 h4⟩

end NP
