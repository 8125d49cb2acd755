import Verif.Hybrid.Spec
import Verif.Mesh.PropsCart
import Verif.Mesh.PropsMapper
import Verif.Mesh.PropsMap
import Mathlib.Tactic.Positivity

/-! # The cell of a position and its owner -/

set_option autoImplicit false

namespace NP

open Spec

theorem isMeshCell_length {m : CartMesh} {t : List Int} (ht : IsMeshCell m t) :
    t.length = m.mh.dims.length := by
  have := ht.length; simpa using this

theorem isMeshCell_get {m : CartMesh} {t : List Int} (ht : IsMeshCell m t) {d : Nat} {n i : Int}
    (hn : m.mh.dims[d]? = some n) (hi : t[d]? = some i) : 0 ≤ i ∧ i < n * 2 ^ m.mh.order := by
  have h := List.forall₂_iff_get.1 ht
  obtain ⟨h1, rfl⟩ := List.getElem?_eq_some_iff.1 hn
  obtain ⟨h2, rfl⟩ := List.getElem?_eq_some_iff.1 hi
  have := h.2 d (by simpa using h1) h2
  simpa using this

theorem nearest_unique {m : CartMesh} {extent : ℚ} (he : 0 < extent) {t t' : List Int} {p : List ℚ}
    (h : NearestCell m extent t p) (h' : NearestCell m extent t' p) : t = t' := by
  have hw : 0 < extent / 2 ^ m.mh.order := by positivity
  apply List.ext_getElem (by rw [isMeshCell_length h.1, isMeshCell_length h'.1])
  intro d h1 h2
  have hd : d < m.mh.dims.length := by rw [← isMeshCell_length h.1]; exact h1
  have hp : d < p.length := lt_of_lt_of_le h1 h.2.1
  have a := h.2.2 d _ _ _ (List.getElem?_eq_getElem hd) (List.getElem?_eq_getElem h1)
    (List.getElem?_eq_getElem hp)
  have b := h'.2.2 d _ _ _ (List.getElem?_eq_getElem hd) (List.getElem?_eq_getElem h2)
    (List.getElem?_eq_getElem hp)
  have c := isMeshCell_get h.1 (List.getElem?_eq_getElem hd) (List.getElem?_eq_getElem h1)
  have c' := isMeshCell_get h'.1 (List.getElem?_eq_getElem hd) (List.getElem?_eq_getElem h2)
  generalize p[d] = x at *
  generalize m.mh.dims[d] * 2 ^ m.mh.order = n at *
  generalize t[d] = i at *
  generalize t'[d] = j at *
  generalize extent / 2 ^ m.mh.order = w at *
  have key : ∀ i j : Int, 0 ≤ i → j < n → (i = n - 1 ∨ x < (i + 1) * w) → (j = 0 ∨ j * w ≤ x) →
      ¬ i < j := by
    intro i j hi hj h1 h2 hlt
    have h1' := h1.resolve_left (by omega)
    have h2' := h2.resolve_left (by omega)
    have : ((i : ℚ) + 1) ≤ j := by exact_mod_cast hlt
    have := mul_le_mul_of_nonneg_right this hw.le
    linarith
  have k1 := key i j c.1 c'.2 a.2 b.1
  have k2 := key j i c'.1 c.2 b.2 a.1
  omega

theorem contains_nearest {m : CartMesh} {extent : ℚ} {t : List Int} {p : List ℚ}
    (ht : IsMeshCell m t) (hl : t.length ≤ p.length) (h : CellContains (m.geom extent) t p)
    (he : 0 < extent) :
    NearestCell m extent t p := by
  refine ⟨ht, hl, ?_⟩
  intro d n i x hn hi hx
  have h := h d n i 0 x hn (by
    show (m.mh.dims.map fun _ => (0 : ℚ))[d]? = some 0
    rw [List.getElem?_map, hn]
    rfl) hx hi
  simp only [fineWidth, CartMesh.geom, zero_add] at h
  rcases h with ⟨h1, h2⟩ | ⟨h1, h2⟩
  · exact ⟨.inr h1, .inr h2⟩
  · refine ⟨.inr ?_, .inl h2⟩
    rw [h1, h2]
    push_cast
    have hw : 0 < extent / 2 ^ m.mh.order := by positivity
    have : (n : ℚ) * extent = n * 2 ^ m.mh.order * (extent / 2 ^ m.mh.order) := by field_simp
    rw [this, sub_mul]
    linarith

theorem owns_of_owningRank {m : CartMesh} (hv : ValidCartMesh m) {t : List Int} {r : Nat}
    (ht : IsMeshCell m t) (h : m.owningRank t = some r) : r < m.comm.dims.prod ∧ Owns m r t := by
  obtain ⟨r', h1, h2, h3, -⟩ := (C39_partition m hv).2 t ht
  rw [h] at h3
  obtain rfl := Option.some.inj h3
  exact ⟨h1, h2⟩

theorem owningRank_of_owns {m : CartMesh} (hv : ValidCartMesh m) {t : List Int} {r : Nat}
    (ht : IsMeshCell m t) (hr : r < m.comm.dims.prod) (h : Owns m r t) :
    m.owningRank t = some r := by
  obtain ⟨r', h1, h2, h3, h4⟩ := (C39_partition m hv).2 t ht
  rw [h3, h4 r hr h]

theorem inHalo_own {m : CartMesh} {t : List Int} {r : Nat}
    (ht : IsMeshCell m t) (h : Owns m r t) : InHalo m r t := by
  refine ⟨t, ht, h, ?_⟩
  have hl : t.length = (m.mh.dims.map (· * 2 ^ m.mh.order)).length := by
    rw [isMeshCell_length ht]; simp
  generalize m.mh.dims.map (· * 2 ^ m.mh.order) = ds at hl
  clear ht h
  induction t generalizing ds with
  | nil => simp
  | cons a t ih =>
    cases ds with
    | nil => simp at hl
    | cons n ds =>
      refine List.Forall₂.cons ⟨0, by omega, by omega, by simp⟩ (ih ds (by simpa using hl))

theorem ownerOf_spec {m : CartMesh} (hv : ValidCartMesh m) {map : List Int} (h : OwnerMap m map) :
    ∀ t r c, IsMeshCell m t → m.owningRank t = some r → IsCellAt m.mh t c →
      ownerOf map c = some (r : Int) := by
  intro t r c ht hr hc
  obtain ⟨h1, h2⟩ := owns_of_owningRank hv ht hr
  have hb := isCellAt_bounds hv.mesh hc
  unfold ownerOf index
  rw [if_pos hb.1]
  exact h.owner t r c ht h2 h1 hc

theorem geom_valid {m : CartMesh} (hv : ValidCartMesh m) {extent : ℚ} (he : 0 < extent) :
    ValidGeom (m.geom extent) :=
  ⟨hv.mesh, by simp [CartMesh.geom], he⟩

theorem geom_inDomain {m : CartMesh} {extent : ℚ} {p : List ℚ} (hl : p.length = m.mh.dims.length)
    (h : InsideMesh m extent p) : InDomain (m.geom extent) p := by
  refine ⟨hl, ?_⟩
  intro d n o x hn ho hx
  have : o = 0 := by
    simp only [CartMesh.geom, List.getElem?_map] at ho
    obtain ⟨_, -, h⟩ := Option.map_eq_some_iff.1 ho
    exact h.symm
  subst this
  have := h d n x hn hx
  simpa [CartMesh.geom] using this

/-- A cell of the mesh hierarchy at `y` is a cell of the mesh at `y`. -/
theorem isMeshCell_of_isCellAt {m : CartMesh} {y : List Int} {c : Int}
    (h : IsCellAt m.mh y c) : IsMeshCell m y := by
  obtain ⟨cs, fs, h1, h2, -, rfl⟩ := h
  unfold IsMeshCell
  have hnf : m.mh.ncellsDimFine = 2 ^ m.mh.order := rfl
  rw [← hnf]
  have hp : 0 < m.mh.ncellsDimFine := ncellsDimFine_pos
  generalize m.mh.ncellsDimFine = nf at *
  unfold MeshHierarchy.ndim at h2
  generalize m.mh.dims = ds at *
  clear hnf
  unfold InRange at *
  induction h1 generalizing fs with
  | nil => simp
  | @cons n c ds cs hc _ ih =>
    obtain ⟨f, fs, hf, hfs, rfl⟩ := List.forall₂_cons_left_iff.mp
      (show List.Forall₂ _ (nf :: List.replicate ds.length nf) fs by
        simpa [List.replicate_succ] using h2)
    simp only [List.map_cons, List.zipWith_cons_cons]
    refine List.Forall₂.cons ?_ (ih fs hfs)
    have a : 0 ≤ c * nf := mul_nonneg hc.1 hp.le
    have b : (c + 1) * nf ≤ n * nf := mul_le_mul_of_nonneg_right (by omega) hp.le
    rw [add_mul, one_mul] at b
    omega

end NP
