import Verif.Boundary.SpecWallPost
import Verif.Boundary.LemmasWallExit
import Verif.Mesh.PropsFace

/-! The face id of an intersection point. -/

set_option autoImplicit false

namespace NP

open Spec

/-- The cell in one dimension. -/
theorem near_coord {w x : ℚ} {N : Int} (hw : 0 < w) (hN : 0 < N) (hx : -w < x) :
    0 ≤ min (N - 1) (truncZ (1 / w * x)) ∧ min (N - 1) (truncZ (1 / w * x)) < N ∧
    (min (N - 1) (truncZ (1 / w * x)) = 0 ∨ (min (N - 1) (truncZ (1 / w * x)) : Int) * w ≤ x) ∧
    (min (N - 1) (truncZ (1 / w * x)) = N - 1 ∨ x < ((min (N - 1) (truncZ (1 / w * x)) : Int) + 1) * w) := by
  have hq : 1 / w * x = x / w := by ring
  rw [hq]
  by_cases h0 : 0 ≤ x
  · have hq0 : 0 ≤ x / w := div_nonneg h0 hw.le
    rw [truncZ_of_nonneg hq0]
    have hf0 : 0 ≤ ⌊x / w⌋ := Int.floor_nonneg.2 hq0
    have h1 : (⌊x / w⌋ : ℚ) * w ≤ x := by
      have := Int.floor_le (x / w)
      calc (⌊x / w⌋ : ℚ) * w ≤ x / w * w := mul_le_mul_of_nonneg_right this hw.le
        _ = x := div_mul_cancel₀ x hw.ne'
    have h2 : x < ((⌊x / w⌋ : ℚ) + 1) * w := by
      have := Int.lt_floor_add_one (x / w)
      calc x = x / w * w := (div_mul_cancel₀ x hw.ne').symm
        _ < _ := mul_lt_mul_of_pos_right this hw
    rcases le_total (N - 1) ⌊x / w⌋ with h | h
    · rw [min_eq_left h]
      refine ⟨by omega, by omega, Or.inr ?_, Or.inl rfl⟩
      refine le_trans (mul_le_mul_of_nonneg_right ?_ hw.le) h1
      exact_mod_cast h
    · rw [min_eq_right h]
      exact ⟨hf0, by omega, Or.inr h1, Or.inr (by exact_mod_cast h2)⟩
  · have hneg : x / w < 0 := div_neg_of_neg_of_pos (not_le.1 h0) hw
    have h1 : -1 < x / w := by rw [lt_div_iff₀ hw]; linarith
    have hc : truncZ (x / w) = 0 := by
      unfold truncZ
      rw [if_neg (not_le.2 hneg)]
      rw [Int.ceil_eq_iff]
      constructor <;> push_cast <;> linarith
    rw [hc, min_eq_right (by omega)]
    refine ⟨le_refl _, hN, Or.inl rfl, Or.inr ?_⟩
    push_cast
    linarith

theorem near_coord' {w iv x : ℚ} {N : Int} (hiv : iv = 1 / w) (hw : 0 < w) (hN : 0 < N) (hx : -w < x) :
    0 ≤ min (N - 1) (truncZ (iv * x)) ∧ min (N - 1) (truncZ (iv * x)) < N ∧
    (min (N - 1) (truncZ (iv * x)) = 0 ∨ (min (N - 1) (truncZ (iv * x)) : Int) * w ≤ x) ∧
    (min (N - 1) (truncZ (iv * x)) = N - 1 ∨ x < ((min (N - 1) (truncZ (iv * x)) : Int) + 1) * w) := by
  subst hiv
  exact near_coord hw hN hx

theorem near_low {w : ℚ} {N : Int} (hw : 0 < w) :
    ((0 : Int) = 0 ∨ ((0 : Int) : ℚ) * w ≤ 0) ∧ ((0 : Int) = N - 1 ∨ (0 : ℚ) < (((0 : Int) : ℚ) + 1) * w) :=
  ⟨Or.inl rfl, Or.inr (by push_cast; linarith)⟩

theorem near_high {w x : ℚ} {N : Int} (hw : 0 < w) (hx : x = N * w) :
    (N - 1 = 0 ∨ ((N - 1 : Int) : ℚ) * w ≤ x) ∧ (N - 1 = N - 1 ∨ x < (((N - 1 : Int) : ℚ) + 1) * w) :=
  ⟨Or.inr (by rw [hx]; push_cast; linarith), Or.inl rfl⟩

theorem exclusiveFrom_get {l : List Int} {a : Int} {f : Nat} (h : f < l.length) :
    (exclusiveFrom a l)[f]? = some (a + (l.take f).sum) := by
  induction l generalizing a f with
  | nil => simp at h
  | cons x l ih =>
    cases f with
    | zero => simp [exclusiveFrom]
    | succ f =>
      rw [exclusiveFrom, List.getElem?_cons_succ, ih (by simpa using h), List.take_succ_cons,
        List.sum_cons, add_assoc]

/-- The tables made by `setup` are those of the mesh. -/
theorem wall_tables {m : CartMesh} (hn : m.mh.dims.length = 2 ∨ m.mh.dims.length = 3) {f : Nat}
    {s0 s1 : Int} (hf : FaceDims m f s0 s1) :
    (wallStrides0 m)[f]? = some s0 ∧ (wallStrides1 m)[f]? = some s1 ∧
      (wallOffsets m)[f]? = some (m.geomsPerFace.take f).sum := by
  obtain ⟨f1, f2, f3, f4, -, -⟩ := hf
  have hc : wallFaceCounts m = m.geomsPerFace := by
    rcases dims_cases hn with ⟨d0, d1, hd⟩ | ⟨d0, d1, d2, hd⟩ <;>
      simp [wallFaceCounts, CartMesh.geomsPerFace, hd]
  have hlen := (geoms_length hn).1
  have hle := (geoms_length hn).2.1
  refine ⟨?_, ?_, ?_⟩
  · rw [← f3]
    rcases dims_cases hn with ⟨d0, d1, hd⟩ | ⟨d0, d1, d2, hd⟩
    · have h4 : m.numFaces = 4 := by simp [CartMesh.numFaces, CartMesh.ndim, MeshHierarchy.ndim, hd]
      rw [h4] at f1
      unfold wallStrides0 CartMesh.faceStrides0
      rw [hd]
      match f, f1 with
      | 0, _ => rfl
      | 1, _ => rfl
      | 2, _ => rfl
      | 3, _ => rfl
    · simp [wallStrides0, CartMesh.faceStrides0, hd]
  · rw [← f4]
    rcases dims_cases hn with ⟨d0, d1, hd⟩ | ⟨d0, d1, d2, hd⟩
    · have h4 : m.numFaces = 4 := by simp [CartMesh.numFaces, CartMesh.ndim, MeshHierarchy.ndim, hd]
      rw [h4] at f1
      unfold wallStrides1 CartMesh.faceStrides1
      rw [hd]
      match f, f1 with
      | 0, _ => rfl
      | 1, _ => rfl
      | 2, _ => rfl
      | 3, _ => rfl
    · simp [wallStrides1, CartMesh.faceStrides1, hd]
  · unfold wallOffsets
    rw [hc, exclusiveFrom_get (by omega), zero_add]

theorem wallElement_aux {m : CartMesh} (hv : ValidCartMesh m)
    (hn : m.mh.dims.length = 2 ∨ m.mh.dims.length = 3) {f : Nat} {s0 s1 : Int} {ix : Nat × Nat}
    {inv p0 p1 : ℚ} {q : List ℚ} {t : List Int} (hf : FaceDims m f s0 s1)
    (hix : wallFacetIndices[f]? = some ix) (h0 : q[ix.1]? = some p0)
    (h1 : (if m.mh.dims.length = 3 then q[ix.2]? else some 0) = some p1)
    (a0 : 0 ≤ min (s0 - 1) (truncZ (inv * p0))) (a1 : min (s0 - 1) (truncZ (inv * p0)) < s0)
    (b0 : 0 ≤ min (s1 - 1) (truncZ (inv * p1))) (b1 : min (s1 - 1) (truncZ (inv * p1)) < s1)
    (ht : m.meshTupleOwningFace
      [(f : Int), min (s0 - 1) (truncZ (inv * p0)), min (s1 - 1) (truncZ (inv * p1))] [0, 0, 0] =
        some (pad3 t)) (hlen : t.length = m.mh.dims.length) :
    ∃ id, wallElement m inv f q = some id ∧ IsFace m id f t ∧ OnSide m f t := by
  obtain ⟨w0, w1, w2⟩ := wall_tables hn hf
  obtain ⟨t', h2, h3⟩ := faceCell hv.mesh hn hf a0 a1 b0 b1
  have htt : t' = t := by
    rw [ht] at h2
    exact (pad3_inj (by rw [hlen, onSide_length h3]) (Option.some.inj h2)).symm
  subst htt
  have hid := (getFaceIdAsTuple_eq hv.mesh hn hf a0 a1 b0 b1).1
  refine ⟨_, ?_, ⟨_, _, hid, ht, hlen⟩, h3⟩
  unfold wallElement
  simp only [rd, hix, h0, h1, w0, w1, w2, Option.bind_some, add_assoc]

set_option maxHeartbeats 1000000 in
/-- The face id of a point on side `f` is that of the cell on the side which contains the point. -/
theorem wallElement_spec {m : CartMesh} {extent tol : ℚ} (hv : ValidCartMesh m)
    (hn : m.mh.dims.length = 2 ∨ m.mh.dims.length = 3) (he : 0 < extent)
    (ht : tol < extent / 2 ^ m.mh.order) {f d : Nat} {up : Bool} {q : List ℚ} {w : ℚ}
    (hs : sideOf f = some (d, up)) (hw : (m.globalExtents extent)[d]? = some w)
    (hlen : q.length = m.mh.dims.length) (hq : q[d]? = some (if up then w else 0))
    (hz : ∀ (i : Nat) z, q[i]? = some z → -tol ≤ z) :
    ∃ id t, wallElement m (2 ^ m.mh.order / extent) f q = some id ∧ IsFace m id f t ∧
      OnSide m f t ∧ NearestCell m extent t q := by
  have hpow : (0 : ℚ) < 2 ^ m.mh.order := by positivity
  have hpowI : (0 : Int) < 2 ^ m.mh.order := by positivity
  have hwid : 0 < extent / 2 ^ m.mh.order := by positivity
  have hinv : (2 : ℚ) ^ m.mh.order / extent = 1 / (extent / 2 ^ m.mh.order) := by
    rw [one_div_div]
  rw [hinv]
  obtain ⟨iv, hiv⟩ : ∃ iv, iv = 1 / (extent / 2 ^ m.mh.order) := ⟨_, rfl⟩
  rw [← hiv]
  have hnfe : m.mh.ncellsDimFine = 2 ^ m.mh.order := rfl
  have hp := hv.mesh.2
  have hhigh : ∀ n : Int, extent * (n : ℚ) = ((n * 2 ^ m.mh.order : Int) : ℚ) * (extent / 2 ^ m.mh.order) := by
    intro n
    push_cast
    field_simp
  have hfn : f < m.numFaces := by
    have hd : d < m.mh.dims.length := by
      have := (List.getElem?_eq_some_iff.1 hw).1
      simpa [CartMesh.globalExtents] using this
    have h4 : m.numFaces = if m.mh.dims.length = 2 then 4 else 6 := by
      rfl
    rw [h4]
    match f, hs with
    | 0, h => cases h; split <;> omega
    | 1, h => cases h; split <;> omega
    | 2, h => cases h; split <;> omega
    | 3, h => cases h; split <;> omega
    | 4, h => cases h; split <;> omega
    | 5, h => cases h; split <;> omega
  obtain ⟨s0, s1, hf⟩ := faceDims_exists hv.mesh hn hfn
  have hf' := hf
  obtain ⟨-, -, f3, f4, -, -⟩ := hf'
  rcases dims_cases hn with ⟨d0, d1, hd⟩ | ⟨d0, d1, d2, hd⟩
  · have p0 : 0 < d0 * 2 ^ m.mh.order := by have : 0 < d0 := hp d0 (by simp [hd]); positivity
    have p1 : 0 < d1 * 2 ^ m.mh.order := by have : 0 < d1 := hp d1 (by simp [hd]); positivity
    have hnd : m.ndim = 2 := by simp [CartMesh.ndim, MeshHierarchy.ndim, hd]
    have h2 : m.mh.dims.length = 2 := by rw [hd]; rfl
    have hl3 : ¬ m.mh.dims.length = 3 := by omega
    rw [h2] at hlen
    match q, hlen with
    | [x0, x1], _ =>
    have z0 := hz 0 x0 rfl
    have z1 := hz 1 x1 rfl
    have c0 := near_coord' hiv hwid p0 (x := x0) (by linarith)
    have c1 := near_coord' hiv hwid p1 (x := x1) (by linarith)
    have cz := near_coord' hiv hwid (N := 1) (by norm_num) (x := 0) (by linarith)
    have near : ∀ a b : Int, IsMeshCell m [a, b] →
        ((a = 0 ∨ a * (extent / 2 ^ m.mh.order) ≤ x0) ∧
          (a = d0 * 2 ^ m.mh.order - 1 ∨ x0 < (a + 1) * (extent / 2 ^ m.mh.order))) →
        ((b = 0 ∨ b * (extent / 2 ^ m.mh.order) ≤ x1) ∧
          (b = d1 * 2 ^ m.mh.order - 1 ∨ x1 < (b + 1) * (extent / 2 ^ m.mh.order))) →
        NearestCell m extent [a, b] [x0, x1] := by
      intro a b hc ha hb
      refine ⟨hc, le_refl _, ?_⟩
      intro i n j x hi hj hx
      rw [hd] at hi
      rcases wall_two hi with ⟨rfl, rfl⟩ | ⟨rfl, rfl⟩
      · cases hj; cases hx; exact ha
      · cases hj; cases hx; exact hb
    unfold CartMesh.faceStrides0 at f3
    unfold CartMesh.faceStrides1 at f4
    unfold CartMesh.globalExtents at hw
    rw [hd] at f3 f4 hw
    simp only [hnfe] at f3 f4
    have hcc : m.cellCounts = [d0 * 2 ^ m.mh.order, d1 * 2 ^ m.mh.order] := by
      simp [CartMesh.cellCounts, hd, hnfe]
    match f, hs, f3, f4, hfn, hf with
    | 0, hs, f3, f4, hfn, hf =>
      cases hs; cases f3; cases f4; cases hw; cases hq
      obtain ⟨id, k1, k2, k3⟩ := wallElement_aux hv hn hf (ix := (0, 2)) rfl (q := [x0, 0]) rfl
        (if_neg hl3) (inv := iv) (t := [min (d0 * 2 ^ m.mh.order - 1) (truncZ (iv * x0)), 0]) c0.1 c0.2.1 cz.1 cz.2.1
        (by simp [CartMesh.meshTupleOwningFace, hnd, rd, index, st, hcc, pad3]; try rfl)
        (by rw [h2]; rfl)
      exact ⟨id, _, k1, k2, k3, near _ _ k3.1 c0.2.2 (near_low hwid)⟩
    | 1, hs, f3, f4, hfn, hf =>
      cases hs; cases f3; cases f4; cases hw; cases hq
      obtain ⟨id, k1, k2, k3⟩ := wallElement_aux hv hn hf (ix := (1, 2)) rfl (q := [extent * (d0 : ℚ), x1]) rfl
        (if_neg hl3) (inv := iv) (t := [d0 * 2 ^ m.mh.order - 1, min (d1 * 2 ^ m.mh.order - 1) (truncZ (iv * x1))]) c1.1 c1.2.1 cz.1 cz.2.1
        (by simp [CartMesh.meshTupleOwningFace, hnd, rd, index, st, hcc, pad3]; try rfl)
        (by rw [h2]; rfl)
      exact ⟨id, _, k1, k2, k3, near _ _ k3.1 (near_high hwid (hhigh d0)) c1.2.2⟩
    | 2, hs, f3, f4, hfn, hf =>
      cases hs; cases f3; cases f4; cases hw; cases hq
      obtain ⟨id, k1, k2, k3⟩ := wallElement_aux hv hn hf (ix := (0, 2)) rfl (q := [x0, extent * (d1 : ℚ)]) rfl
        (if_neg hl3) (inv := iv) (t := [min (d0 * 2 ^ m.mh.order - 1) (truncZ (iv * x0)), d1 * 2 ^ m.mh.order - 1]) c0.1 c0.2.1 cz.1 cz.2.1
        (by simp [CartMesh.meshTupleOwningFace, hnd, rd, index, st, hcc, pad3]; try rfl)
        (by rw [h2]; rfl)
      exact ⟨id, _, k1, k2, k3, near _ _ k3.1 c0.2.2 (near_high hwid (hhigh d1))⟩
    | 3, hs, f3, f4, hfn, hf =>
      cases hs; cases f3; cases f4; cases hw; cases hq
      obtain ⟨id, k1, k2, k3⟩ := wallElement_aux hv hn hf (ix := (1, 2)) rfl (q := [0, x1]) rfl
        (if_neg hl3) (inv := iv) (t := [0, min (d1 * 2 ^ m.mh.order - 1) (truncZ (iv * x1))]) c1.1 c1.2.1 cz.1 cz.2.1
        (by simp [CartMesh.meshTupleOwningFace, hnd, rd, index, st, hcc, pad3]; try rfl)
        (by rw [h2]; rfl)
      exact ⟨id, _, k1, k2, k3, near _ _ k3.1 (near_low hwid) c1.2.2⟩
    | f + 4, hs, f3, f4, hfn, hf =>
      have : m.numFaces = 4 := by simp [CartMesh.numFaces, hnd]
      omega
  · have p0 : 0 < d0 * 2 ^ m.mh.order := by have : 0 < d0 := hp d0 (by simp [hd]); positivity
    have p1 : 0 < d1 * 2 ^ m.mh.order := by have : 0 < d1 := hp d1 (by simp [hd]); positivity
    have p2 : 0 < d2 * 2 ^ m.mh.order := by have : 0 < d2 := hp d2 (by simp [hd]); positivity
    have hnd : m.ndim = 3 := by simp [CartMesh.ndim, MeshHierarchy.ndim, hd]
    have h2 : m.mh.dims.length = 3 := by rw [hd]; rfl
    rw [h2] at hlen
    match q, hlen with
    | [x0, x1, x2], _ =>
    have z0 := hz 0 x0 rfl
    have z1 := hz 1 x1 rfl
    have z2 := hz 2 x2 rfl
    have c0 := near_coord' hiv hwid p0 (x := x0) (by linarith)
    have c1 := near_coord' hiv hwid p1 (x := x1) (by linarith)
    have c2 := near_coord' hiv hwid p2 (x := x2) (by linarith)
    have near : ∀ a b c : Int, IsMeshCell m [a, b, c] →
        ((a = 0 ∨ a * (extent / 2 ^ m.mh.order) ≤ x0) ∧
          (a = d0 * 2 ^ m.mh.order - 1 ∨ x0 < (a + 1) * (extent / 2 ^ m.mh.order))) →
        ((b = 0 ∨ b * (extent / 2 ^ m.mh.order) ≤ x1) ∧
          (b = d1 * 2 ^ m.mh.order - 1 ∨ x1 < (b + 1) * (extent / 2 ^ m.mh.order))) →
        ((c = 0 ∨ c * (extent / 2 ^ m.mh.order) ≤ x2) ∧
          (c = d2 * 2 ^ m.mh.order - 1 ∨ x2 < (c + 1) * (extent / 2 ^ m.mh.order))) →
        NearestCell m extent [a, b, c] [x0, x1, x2] := by
      intro a b c hcell ha hb hc
      refine ⟨hcell, le_refl _, ?_⟩
      intro i n j x hi hj hx
      rw [hd] at hi
      rcases wall_three hi with ⟨rfl, rfl⟩ | ⟨rfl, rfl⟩ | ⟨rfl, rfl⟩
      · cases hj; cases hx; exact ha
      · cases hj; cases hx; exact hb
      · cases hj; cases hx; exact hc
    unfold CartMesh.faceStrides0 at f3
    unfold CartMesh.faceStrides1 at f4
    unfold CartMesh.globalExtents at hw
    rw [hd] at f3 f4 hw
    simp only [hnfe] at f3 f4
    have hcc : m.cellCounts = [d0 * 2 ^ m.mh.order, d1 * 2 ^ m.mh.order, d2 * 2 ^ m.mh.order] := by
      simp [CartMesh.cellCounts, hd]
    match f, hs, f3, f4, hfn, hf with
    | 0, hs, f3, f4, hfn, hf =>
      cases hs; cases f3; cases f4; cases hw; cases hq
      obtain ⟨id, k1, k2, k3⟩ := wallElement_aux hv hn hf (ix := (0, 2)) rfl
        (q := [x0, 0, x2]) rfl
        (if_pos h2) (inv := iv) (t := [min (d0 * 2 ^ m.mh.order - 1) (truncZ (iv * x0)),
          0,
          min (d2 * 2 ^ m.mh.order - 1) (truncZ (iv * x2))]) c0.1 c0.2.1 c2.1 c2.2.1
        (by simp [CartMesh.meshTupleOwningFace, hnd, rd, index, st, hcc, pad3]; try rfl)
        (by rw [h2]; rfl)
      exact ⟨id, _, k1, k2, k3, near _ _ _ k3.1 c0.2.2 (near_low hwid) c2.2.2⟩
    | 1, hs, f3, f4, hfn, hf =>
      cases hs; cases f3; cases f4; cases hw; cases hq
      obtain ⟨id, k1, k2, k3⟩ := wallElement_aux hv hn hf (ix := (1, 2)) rfl
        (q := [extent * (d0 : ℚ), x1, x2]) rfl
        (if_pos h2) (inv := iv) (t := [d0 * 2 ^ m.mh.order - 1,
          min (d1 * 2 ^ m.mh.order - 1) (truncZ (iv * x1)),
          min (d2 * 2 ^ m.mh.order - 1) (truncZ (iv * x2))]) c1.1 c1.2.1 c2.1 c2.2.1
        (by simp [CartMesh.meshTupleOwningFace, hnd, rd, index, st, hcc, pad3]; try rfl)
        (by rw [h2]; rfl)
      exact ⟨id, _, k1, k2, k3, near _ _ _ k3.1 (near_high hwid (hhigh d0)) c1.2.2 c2.2.2⟩
    | 2, hs, f3, f4, hfn, hf =>
      cases hs; cases f3; cases f4; cases hw; cases hq
      obtain ⟨id, k1, k2, k3⟩ := wallElement_aux hv hn hf (ix := (0, 2)) rfl
        (q := [x0, extent * (d1 : ℚ), x2]) rfl
        (if_pos h2) (inv := iv) (t := [min (d0 * 2 ^ m.mh.order - 1) (truncZ (iv * x0)),
          d1 * 2 ^ m.mh.order - 1,
          min (d2 * 2 ^ m.mh.order - 1) (truncZ (iv * x2))]) c0.1 c0.2.1 c2.1 c2.2.1
        (by simp [CartMesh.meshTupleOwningFace, hnd, rd, index, st, hcc, pad3]; try rfl)
        (by rw [h2]; rfl)
      exact ⟨id, _, k1, k2, k3, near _ _ _ k3.1 c0.2.2 (near_high hwid (hhigh d1)) c2.2.2⟩
    | 3, hs, f3, f4, hfn, hf =>
      cases hs; cases f3; cases f4; cases hw; cases hq
      obtain ⟨id, k1, k2, k3⟩ := wallElement_aux hv hn hf (ix := (1, 2)) rfl
        (q := [0, x1, x2]) rfl
        (if_pos h2) (inv := iv) (t := [0,
          min (d1 * 2 ^ m.mh.order - 1) (truncZ (iv * x1)),
          min (d2 * 2 ^ m.mh.order - 1) (truncZ (iv * x2))]) c1.1 c1.2.1 c2.1 c2.2.1
        (by simp [CartMesh.meshTupleOwningFace, hnd, rd, index, st, hcc, pad3]; try rfl)
        (by rw [h2]; rfl)
      exact ⟨id, _, k1, k2, k3, near _ _ _ k3.1 (near_low hwid) c1.2.2 c2.2.2⟩
    | 4, hs, f3, f4, hfn, hf =>
      cases hs; cases f3; cases f4; cases hw; cases hq
      obtain ⟨id, k1, k2, k3⟩ := wallElement_aux hv hn hf (ix := (0, 1)) rfl
        (q := [x0, x1, 0]) rfl
        (if_pos h2) (inv := iv) (t := [min (d0 * 2 ^ m.mh.order - 1) (truncZ (iv * x0)),
          min (d1 * 2 ^ m.mh.order - 1) (truncZ (iv * x1)),
          0]) c0.1 c0.2.1 c1.1 c1.2.1
        (by simp [CartMesh.meshTupleOwningFace, hnd, rd, index, st, hcc, pad3]; try rfl)
        (by rw [h2]; rfl)
      exact ⟨id, _, k1, k2, k3, near _ _ _ k3.1 c0.2.2 c1.2.2 (near_low hwid)⟩
    | 5, hs, f3, f4, hfn, hf =>
      cases hs; cases f3; cases f4; cases hw; cases hq
      obtain ⟨id, k1, k2, k3⟩ := wallElement_aux hv hn hf (ix := (0, 1)) rfl
        (q := [x0, x1, extent * (d2 : ℚ)]) rfl
        (if_pos h2) (inv := iv) (t := [min (d0 * 2 ^ m.mh.order - 1) (truncZ (iv * x0)),
          min (d1 * 2 ^ m.mh.order - 1) (truncZ (iv * x1)),
          d2 * 2 ^ m.mh.order - 1]) c0.1 c0.2.1 c1.1 c1.2.1
        (by simp [CartMesh.meshTupleOwningFace, hnd, rd, index, st, hcc, pad3]; try rfl)
        (by rw [h2]; rfl)
      exact ⟨id, _, k1, k2, k3, near _ _ _ k3.1 c0.2.2 c1.2.2 (near_high hwid (hhigh d2))⟩

end NP
