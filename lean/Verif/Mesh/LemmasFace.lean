import Verif.Mesh.SpecFace
import Verif.Mesh.LemmasMapper

/-!
# Lemmas about the faces
-/

set_option autoImplicit false

namespace NP

theorem faceScans_get {gs : List Int} {tot : Int} {f : Nat} {g : Int} (h : gs[f]? = some g) :
    (faceScans tot gs)[f]? = some (tot + (gs.take f).sum, tot + (gs.take f).sum + g) := by
  induction gs generalizing tot f with
  | nil => simp at h
  | cons x gs ih =>
    cases f with
    | zero =>
      simp only [List.getElem?_cons_zero, Option.some.injEq] at h
      subst h
      simp [faceScans]
    | succ f =>
      rw [List.getElem?_cons_succ] at h
      rw [faceScans, List.getElem?_cons_succ, ih h, List.take_succ_cons, List.sum_cons]
      congr 2 <;> ring

theorem faceScans_take {gs : List Int} {tot : Int} {k : Nat} :
    (faceScans tot gs).take k = faceScans tot (gs.take k) := by
  induction gs generalizing tot k with
  | nil => simp [faceScans]
  | cons x gs ih =>
    cases k with
    | zero => simp [faceScans]
    | succ k => simp [faceScans, ih]

theorem findFace_eq {gs : List Int} {tot loc : Int} {f : Nat} {g : Int} (hn : ∀ x ∈ gs, 0 ≤ x)
    (h : gs[f]? = some g) (h0 : 0 ≤ loc) (h1 : loc < g) :
    findFace (faceScans tot gs) (tot + (gs.take f).sum + loc) = some f := by
  induction gs generalizing tot f with
  | nil => simp at h
  | cons x gs ih =>
    cases f with
    | zero =>
      simp only [List.getElem?_cons_zero, Option.some.injEq] at h
      subst h
      simp only [faceScans, findFace, List.take_zero, List.sum_nil]
      rw [if_pos (by omega)]
    | succ f =>
      rw [List.getElem?_cons_succ] at h
      have hs : 0 ≤ (gs.take f).sum := List.sum_nonneg fun y hy =>
        hn y (by simp [List.mem_of_mem_take hy])
      simp only [faceScans, findFace, List.take_succ_cons, List.sum_cons]
      rw [if_neg (by omega), show tot + (x + (gs.take f).sum) + loc =
        (tot + x) + (gs.take f).sum + loc by ring, ih (fun y hy => hn y (by simp [hy])) h,
        Option.bind_some]

theorem exists_face {gs : List Int} {tot id : Int} (h0 : tot ≤ id)
    (h1 : id < tot + gs.sum) : ∃ (f : Nat) (g loc : Int), gs[f]? = some g ∧ 0 ≤ loc ∧ loc < g ∧
      id = tot + (gs.take f).sum + loc := by
  induction gs generalizing tot with
  | nil => simp at h1; omega
  | cons x gs ih =>
    rw [List.sum_cons] at h1
    by_cases hx : id < tot + x
    · exact ⟨0, x, id - tot, rfl, by omega, by omega, by simp⟩
    · obtain ⟨f, g, loc, a1, a2, a3, a4⟩ := ih (tot := tot + x) (by omega) (by omega)
      exact ⟨f + 1, g, loc, by simpa using a1, a2, a3, by
        rw [List.take_succ_cons, List.sum_cons, a4]; ring⟩

/-- The sizes of face `f`. -/
def FaceDims (m : CartMesh) (f : Nat) (s0 s1 : Int) : Prop :=
  f < m.numFaces ∧ m.geomsPerFace[f]? = some (s0 * s1) ∧ m.faceStrides0[f]? = some s0 ∧
    m.faceStrides1[f]? = some s1 ∧ 0 < s0 ∧ 0 < s1

/-- Meshes with faces: two or three dimensions. -/
theorem dims_cases {m : CartMesh} (hn : m.mh.dims.length = 2 ∨ m.mh.dims.length = 3) :
    (∃ d0 d1, m.mh.dims = [d0, d1]) ∨ ∃ d0 d1 d2, m.mh.dims = [d0, d1, d2] := by
  rcases hn with h | h
  · left
    match hd : m.mh.dims, h with
    | [d0, d1], _ => exact ⟨d0, d1, rfl⟩
  · right
    match hd : m.mh.dims, h with
    | [d0, d1, d2], _ => exact ⟨d0, d1, d2, rfl⟩

theorem faceDims_exists {m : CartMesh} (hm : Spec.ValidMesh m.mh)
    (hn : m.mh.dims.length = 2 ∨ m.mh.dims.length = 3) {f : Nat} (hf : f < m.numFaces) :
    ∃ s0 s1, FaceDims m f s0 s1 := by
  have hnf := ncellsDimFine_pos (mh := m.mh)
  have hp := hm.2
  have e : ∀ a b c : Int, a * b * c ^ 2 = a * c * (b * c) := by intros; ring
  rcases dims_cases hn with ⟨d0, d1, hd⟩ | ⟨d0, d1, d2, hd⟩
  · have h0 : 0 < d0 := hp d0 (by simp [hd])
    have h1 : 0 < d1 := hp d1 (by simp [hd])
    have h4 : m.numFaces = 4 := by simp [CartMesh.numFaces, CartMesh.ndim, MeshHierarchy.ndim, hd]
    rw [h4] at hf
    unfold FaceDims CartMesh.geomsPerFace CartMesh.faceStrides0 CartMesh.faceStrides1
    rw [hd, h4]
    match f, hf with
    | 0, _ => exact ⟨_, _, by omega, by simp, rfl, rfl, by positivity, by positivity⟩
    | 1, _ => exact ⟨_, _, by omega, by simp, rfl, rfl, by positivity, by positivity⟩
    | 2, _ => exact ⟨_, _, by omega, by simp, rfl, rfl, by positivity, by positivity⟩
    | 3, _ => exact ⟨_, _, by omega, by simp, rfl, rfl, by positivity, by positivity⟩
  · have h0 : 0 < d0 := hp d0 (by simp [hd])
    have h1 : 0 < d1 := hp d1 (by simp [hd])
    have h2 : 0 < d2 := hp d2 (by simp [hd])
    have h4 : m.numFaces = 6 := by simp [CartMesh.numFaces, CartMesh.ndim, MeshHierarchy.ndim, hd]
    rw [h4] at hf
    unfold FaceDims CartMesh.geomsPerFace CartMesh.faceStrides0 CartMesh.faceStrides1
    rw [hd, h4]
    simp only [e]
    match f, hf with
    | 0, _ => exact ⟨_, _, by omega, rfl, rfl, rfl, by positivity, by positivity⟩
    | 1, _ => exact ⟨_, _, by omega, rfl, rfl, rfl, by positivity, by positivity⟩
    | 2, _ => exact ⟨_, _, by omega, rfl, rfl, rfl, by positivity, by positivity⟩
    | 3, _ => exact ⟨_, _, by omega, rfl, rfl, rfl, by positivity, by positivity⟩
    | 4, _ => exact ⟨_, _, by omega, rfl, rfl, rfl, by positivity, by positivity⟩
    | 5, _ => exact ⟨_, _, by omega, rfl, rfl, rfl, by positivity, by positivity⟩

theorem geoms_nonneg {m : CartMesh} (hm : Spec.ValidMesh m.mh)
    (hn : m.mh.dims.length = 2 ∨ m.mh.dims.length = 3) : ∀ x ∈ m.geomsPerFace, 0 ≤ x := by
  have hnf := ncellsDimFine_pos (mh := m.mh)
  have hp := hm.2
  rcases dims_cases hn with ⟨d0, d1, hd⟩ | ⟨d0, d1, d2, hd⟩
  · have h0 : 0 < d0 := hp d0 (by simp [hd])
    have h1 : 0 < d1 := hp d1 (by simp [hd])
    unfold CartMesh.geomsPerFace
    rw [hd]
    simp only [List.mem_cons, List.not_mem_nil, or_false]
    rintro x (rfl | rfl | rfl | rfl | rfl | rfl) <;> positivity
  · have h0 : 0 < d0 := hp d0 (by simp [hd])
    have h1 : 0 < d1 := hp d1 (by simp [hd])
    have h2 : 0 < d2 := hp d2 (by simp [hd])
    unfold CartMesh.geomsPerFace
    rw [hd]
    simp only [List.mem_cons, List.not_mem_nil, or_false]
    rintro x (rfl | rfl | rfl | rfl | rfl | rfl) <;> positivity

theorem geoms_length {m : CartMesh} (hn : m.mh.dims.length = 2 ∨ m.mh.dims.length = 3) :
    m.geomsPerFace.length = 6 ∧ m.numFaces ≤ 6 ∧
    (m.geomsPerFace.take m.numFaces).sum = m.ncellsFaceGlobal := by
  rcases dims_cases hn with ⟨d0, d1, hd⟩ | ⟨d0, d1, d2, hd⟩
  · have h4 : m.numFaces = 4 := by simp [CartMesh.numFaces, CartMesh.ndim, MeshHierarchy.ndim, hd]
    unfold CartMesh.ncellsFaceGlobal CartMesh.geomsPerFace
    rw [hd, h4]
    simp
  · have h4 : m.numFaces = 6 := by simp [CartMesh.numFaces, CartMesh.ndim, MeshHierarchy.ndim, hd]
    unfold CartMesh.ncellsFaceGlobal CartMesh.geomsPerFace
    rw [hd, h4]
    simp

/-- The offset of face `f` is not above the offset of a later face, and a local index on face
`f` gives an index in range. -/
theorem sum_take_le {gs : List Int} (hn : ∀ x ∈ gs, 0 ≤ x) {f k : Nat} {g : Int}
    (h : gs[f]? = some g) (hk : f < k) : (gs.take f).sum + g ≤ (gs.take k).sum := by
  induction gs generalizing f k with
  | nil => simp at h
  | cons x gs ih =>
    obtain ⟨k, rfl⟩ : ∃ k', k = k' + 1 := ⟨k - 1, by omega⟩
    rw [List.take_succ_cons, List.sum_cons]
    cases f with
    | zero =>
      simp only [List.getElem?_cons_zero, Option.some.injEq] at h
      subst h
      have : 0 ≤ (gs.take k).sum := List.sum_nonneg fun y hy =>
        hn y (by simp [List.mem_of_mem_take hy])
      simp; omega
    | succ f =>
      rw [List.take_succ_cons, List.sum_cons]
      have := ih (fun y hy => hn y (by simp [hy])) (by simpa using h) (show f < k by omega)
      omega

theorem local_split {s0 s1 l0 l1 : Int} (h0 : 0 ≤ l0) (h1 : l0 < s0) (h2 : 0 ≤ l1) (h3 : l1 < s1) :
    0 ≤ l0 + l1 * s0 ∧ l0 + l1 * s0 < s0 * s1 ∧ (l0 + l1 * s0).tmod s0 = l0 ∧
      (l0 + l1 * s0).tdiv s0 = l1 := by
  have hnn : 0 ≤ l1 * s0 := mul_nonneg h2 (by omega)
  have hle : (l1 + 1) * s0 ≤ s1 * s0 := mul_le_mul_of_nonneg_right (by omega) (by omega)
  refine ⟨by omega, by nlinarith, ?_, ?_⟩
  · rw [Int.tmod_eq_emod_of_nonneg (by omega), Int.add_mul_emod_self_right,
      Int.emod_eq_of_lt h0 h1]
  · rw [Int.tdiv_eq_ediv_of_nonneg (by omega), Int.add_mul_ediv_right _ _ (by omega),
      Int.ediv_eq_zero_of_lt h0 h1, zero_add]

/-- The tuple of a face index. -/
theorem getFaceIdAsTuple_eq {m : CartMesh} (hm : Spec.ValidMesh m.mh)
    (hn : m.mh.dims.length = 2 ∨ m.mh.dims.length = 3) {f : Nat} {s0 s1 l0 l1 : Int}
    (hf : FaceDims m f s0 s1) (h0 : 0 ≤ l0) (h1 : l0 < s0) (h2 : 0 ≤ l1) (h3 : l1 < s1) :
    m.getFaceIdAsTuple ((m.geomsPerFace.take f).sum + (l0 + l1 * s0)) = some [(f : Int), l0, l1] ∧
    0 ≤ (m.geomsPerFace.take f).sum + (l0 + l1 * s0) ∧
    (m.geomsPerFace.take f).sum + (l0 + l1 * s0) < m.ncellsFaceGlobal := by
  obtain ⟨f1, f2, f3, f4, f5, f6⟩ := hf
  obtain ⟨g1, g2, g3⟩ := geoms_length hn
  obtain ⟨q1, q2, q3, q4⟩ := local_split h0 h1 h2 h3
  have hnn := geoms_nonneg hm hn
  have hle := sum_take_le hnn f2 f1
  have hs : 0 ≤ (m.geomsPerFace.take f).sum := List.sum_nonneg fun y hy =>
    hnn y (List.mem_of_mem_take hy)
  refine ⟨?_, by omega, by omega⟩
  unfold CartMesh.getFaceIdAsTuple
  simp only
  rw [if_pos ⟨by omega, by omega⟩, faceScans_take]
  have hfind := findFace_eq (gs := m.geomsPerFace.take m.numFaces) (tot := 0) (f := f)
    (loc := l0 + l1 * s0) (g := s0 * s1) (fun x hx => hnn x (List.mem_of_mem_take hx))
    (by rw [List.getElem?_take, if_pos f1]; exact f2) q1 q2
  rw [List.take_take, min_eq_left (by omega), zero_add] at hfind
  rw [hfind, Option.bind_some]
  simp only [rd]
  rw [faceScans_get f2, Option.bind_some, f3, Option.bind_some, f4, Option.bind_some]
  simp only [zero_add, add_sub_cancel_left]
  rw [if_neg (by omega), q3, q4, if_pos ⟨⟨h2, h3⟩, rfl, trivial⟩]

theorem faceLinearIndex_eq {m : CartMesh}
    (hn : m.mh.dims.length = 2 ∨ m.mh.dims.length = 3) {f : Nat} {s0 s1 l0 l1 : Int}
    (hf : FaceDims m f s0 s1) (h2 : 0 ≤ l1) (h3 : l1 < s1) :
    m.faceLinearIndex [(f : Int), l0, l1] =
      some ((m.geomsPerFace.take f).sum + (l0 + l1 * s0)) := by
  obtain ⟨f1, f2, f3, f4, f5, f6⟩ := hf
  obtain ⟨g1, g2, g3⟩ := geoms_length hn
  unfold CartMesh.faceLinearIndex
  simp only [rd, List.getElem?_cons_zero, List.getElem?_cons_succ, Option.bind_some, index]
  rw [if_pos (by omega), Option.bind_some, Int.toNat_natCast, if_pos (by omega), f3]
  simp only [Option.bind_some]
  split
  · rename_i h
    have hl1 : l1 = 0 := by
      rcases dims_cases hn with ⟨d0, d1, hd⟩ | ⟨d0, d1, d2, hd⟩
      · have h4 : m.numFaces = 4 := by
          simp [CartMesh.numFaces, CartMesh.ndim, MeshHierarchy.ndim, hd]
        rw [h4] at f1
        unfold CartMesh.faceStrides1 at f4
        rw [hd] at f4
        have : s1 = 1 := by
          match f, f1, f4 with
          | 0, _, h => simpa using h.symm
          | 1, _, h => simpa using h.symm
          | 2, _, h => simpa using h.symm
          | 3, _, h => simpa using h.symm
        omega
      · simp [CartMesh.ndim, MeshHierarchy.ndim, hd] at h
    rw [hl1]
    simp
  · rw [add_assoc]

/-- Every face index is one of those. -/
theorem faceId_cases {m : CartMesh} (hm : Spec.ValidMesh m.mh)
    (hn : m.mh.dims.length = 2 ∨ m.mh.dims.length = 3) {id : Int} (h0 : 0 ≤ id)
    (h1 : id < m.ncellsFaceGlobal) :
    ∃ f s0 s1 l0 l1, FaceDims m f s0 s1 ∧ 0 ≤ l0 ∧ l0 < s0 ∧ 0 ≤ l1 ∧ l1 < s1 ∧
      id = (m.geomsPerFace.take f).sum + (l0 + l1 * s0) := by
  obtain ⟨g1, g2, g3⟩ := geoms_length hn
  rw [← g3] at h1
  obtain ⟨f, g, loc, a1, a2, a3, a4⟩ := exists_face (tot := 0) h0 (by rw [zero_add]; exact h1)
  have hf : f < m.numFaces := by
    have := (List.getElem?_eq_some_iff.mp a1).1
    rw [List.length_take] at this
    omega
  obtain ⟨s0, s1, hd⟩ := faceDims_exists hm hn hf
  rw [List.getElem?_take, if_pos hf, hd.2.1] at a1
  obtain rfl := Option.some.inj a1
  have hd' := hd
  obtain ⟨-, -, -, -, f5, f6⟩ := hd
  refine ⟨f, s0, s1, loc % s0, loc / s0, hd', Int.emod_nonneg _ (by omega),
    Int.emod_lt_of_pos _ f5, Int.ediv_nonneg a2 (by omega), ?_, ?_⟩
  · exact Int.ediv_lt_of_lt_mul f5 (by rw [mul_comm]; exact a3)
  · rw [a4, List.take_take, min_eq_left (by omega), zero_add]
    have := Int.emod_add_mul_ediv loc s0
    rw [mul_comm] at this
    omega

/-- The cell of a face. -/
theorem faceCell {m : CartMesh} (hm : Spec.ValidMesh m.mh)
    (hn : m.mh.dims.length = 2 ∨ m.mh.dims.length = 3) {f : Nat} {s0 s1 l0 l1 : Int}
    (hf : FaceDims m f s0 s1) (h0 : 0 ≤ l0) (h1 : l0 < s0) (h2 : 0 ≤ l1) (h3 : l1 < s1) :
    ∃ t, m.meshTupleOwningFace [(f : Int), l0, l1] [0, 0, 0] = some (Spec.pad3 t) ∧
      Spec.OnSide m f t := by
  obtain ⟨f1, f2, f3, f4, f5, f6⟩ := hf
  have hnf := ncellsDimFine_pos (mh := m.mh)
  have hnfe : m.mh.ncellsDimFine = 2 ^ m.mh.order := rfl
  have hp := hm.2
  rcases dims_cases hn with ⟨d0, d1, hd⟩ | ⟨d0, d1, d2, hd⟩
  · have p0 : 0 < d0 * 2 ^ m.mh.order := by have : 0 < d0 := hp d0 (by simp [hd]); positivity
    have p1 : 0 < d1 * 2 ^ m.mh.order := by have : 0 < d1 := hp d1 (by simp [hd]); positivity
    have h4 : m.numFaces = 4 := by simp [CartMesh.numFaces, CartMesh.ndim, MeshHierarchy.ndim, hd]
    have hnd : m.ndim = 2 := by simp [CartMesh.ndim, MeshHierarchy.ndim, hd]
    rw [h4] at f1
    unfold CartMesh.faceStrides0 at f3
    unfold CartMesh.faceStrides1 at f4
    rw [hd] at f3 f4
    simp only [hnfe] at f3 f4
    unfold CartMesh.meshTupleOwningFace Spec.OnSide Spec.IsMeshCell CartMesh.cellCounts
    rw [hd, hnd]
    have mk : ∀ a b : Int, (0 ≤ a ∧ a < d0 * 2 ^ m.mh.order) → (0 ≤ b ∧ b < d1 * 2 ^ m.mh.order) →
        Spec.InRange ([d0, d1].map (· * 2 ^ m.mh.order)) [a, b] := fun a b ha hb =>
      List.Forall₂.cons ha (List.Forall₂.cons hb List.Forall₂.nil)
    match f, f1, f3, f4 with
    | 0, _, f3, f4 =>
      simp only [List.getElem?_cons_zero, Option.some.injEq] at f3 f4
      refine ⟨[l0, 0], by simp [rd, index, st, Spec.pad3, List.replicate], ?_, 1, false, _, rfl, rfl, rfl⟩
      exact mk _ _ (by omega) (by omega)
    | 1, _, f3, f4 =>
      simp only [List.getElem?_cons_zero, List.getElem?_cons_succ, Option.some.injEq] at f3 f4
      refine ⟨[d0 * 2 ^ m.mh.order - 1, l0], by simp [rd, index, st, Spec.pad3, List.replicate], ?_,
        0, true, _, rfl, rfl, rfl⟩
      exact mk _ _ (by omega) (by omega)
    | 2, _, f3, f4 =>
      simp only [List.getElem?_cons_zero, List.getElem?_cons_succ, Option.some.injEq] at f3 f4
      refine ⟨[l0, d1 * 2 ^ m.mh.order - 1], by simp [rd, index, st, Spec.pad3, List.replicate], ?_,
        1, true, _, rfl, rfl, rfl⟩
      exact mk _ _ (by omega) (by omega)
    | 3, _, f3, f4 =>
      simp only [List.getElem?_cons_zero, List.getElem?_cons_succ, Option.some.injEq] at f3 f4
      refine ⟨[0, l0], by simp [rd, index, st, Spec.pad3, List.replicate], ?_,
        0, false, _, rfl, rfl, rfl⟩
      exact mk _ _ (by omega) (by omega)
  · have p0 : 0 < d0 * 2 ^ m.mh.order := by have : 0 < d0 := hp d0 (by simp [hd]); positivity
    have p1 : 0 < d1 * 2 ^ m.mh.order := by have : 0 < d1 := hp d1 (by simp [hd]); positivity
    have p2 : 0 < d2 * 2 ^ m.mh.order := by have : 0 < d2 := hp d2 (by simp [hd]); positivity
    have h4 : m.numFaces = 6 := by simp [CartMesh.numFaces, CartMesh.ndim, MeshHierarchy.ndim, hd]
    have hnd : m.ndim = 3 := by simp [CartMesh.ndim, MeshHierarchy.ndim, hd]
    rw [h4] at f1
    unfold CartMesh.faceStrides0 at f3
    unfold CartMesh.faceStrides1 at f4
    rw [hd] at f3 f4
    simp only [hnfe] at f3 f4
    unfold CartMesh.meshTupleOwningFace Spec.OnSide Spec.IsMeshCell CartMesh.cellCounts
    rw [hd, hnd]
    have mk : ∀ a b c : Int, (0 ≤ a ∧ a < d0 * 2 ^ m.mh.order) → (0 ≤ b ∧ b < d1 * 2 ^ m.mh.order) →
        (0 ≤ c ∧ c < d2 * 2 ^ m.mh.order) →
        Spec.InRange ([d0, d1, d2].map (· * 2 ^ m.mh.order)) [a, b, c] := fun a b c ha hb hc =>
      List.Forall₂.cons ha (List.Forall₂.cons hb (List.Forall₂.cons hc List.Forall₂.nil))
    match f, f1, f3, f4 with
    | 0, _, f3, f4 =>
      simp only [List.getElem?_cons_zero, Option.some.injEq] at f3 f4
      exact ⟨[l0, 0, l1], by simp [rd, index, st, Spec.pad3], mk _ _ _ (by omega) (by omega) (by omega),
        1, false, _, rfl, rfl, rfl⟩
    | 1, _, f3, f4 =>
      simp only [List.getElem?_cons_zero, List.getElem?_cons_succ, Option.some.injEq] at f3 f4
      exact ⟨[d0 * 2 ^ m.mh.order - 1, l0, l1], by simp [rd, index, st, Spec.pad3],
        mk _ _ _ (by omega) (by omega) (by omega), 0, true, _, rfl, rfl, rfl⟩
    | 2, _, f3, f4 =>
      simp only [List.getElem?_cons_zero, List.getElem?_cons_succ, Option.some.injEq] at f3 f4
      exact ⟨[l0, d1 * 2 ^ m.mh.order - 1, l1], by simp [rd, index, st, Spec.pad3],
        mk _ _ _ (by omega) (by omega) (by omega), 1, true, _, rfl, rfl, rfl⟩
    | 3, _, f3, f4 =>
      simp only [List.getElem?_cons_zero, List.getElem?_cons_succ, Option.some.injEq] at f3 f4
      exact ⟨[0, l0, l1], by simp [rd, index, st, Spec.pad3],
        mk _ _ _ (by omega) (by omega) (by omega), 0, false, _, rfl, rfl, rfl⟩
    | 4, _, f3, f4 =>
      simp only [List.getElem?_cons_zero, List.getElem?_cons_succ, Option.some.injEq] at f3 f4
      exact ⟨[l0, l1, 0], by simp [rd, index, st, Spec.pad3],
        mk _ _ _ (by omega) (by omega) (by omega), 2, false, _, rfl, rfl, rfl⟩
    | 5, _, f3, f4 =>
      simp only [List.getElem?_cons_zero, List.getElem?_cons_succ, Option.some.injEq] at f3 f4
      exact ⟨[l0, l1, d2 * 2 ^ m.mh.order - 1], by simp [rd, index, st, Spec.pad3],
        mk _ _ _ (by omega) (by omega) (by omega), 2, true, _, rfl, rfl, rfl⟩

set_option maxHeartbeats 1000000 in
/-- The face of a cell on a side: which local indices it has, and that it is the only one. -/
theorem cellFace {m : CartMesh} (hm : Spec.ValidMesh m.mh)
    (hn : m.mh.dims.length = 2 ∨ m.mh.dims.length = 3) {f : Nat} {t : List Int}
    (ht : Spec.OnSide m f t) :
    ∃ s0 s1 l0 l1, FaceDims m f s0 s1 ∧ 0 ≤ l0 ∧ l0 < s0 ∧ 0 ≤ l1 ∧ l1 < s1 ∧
      m.meshTupleOwningFace [(f : Int), l0, l1] [0, 0, 0] = some (Spec.pad3 t) ∧
      (∀ k0 k1, 0 ≤ k1 → k1 < s1 →
        m.meshTupleOwningFace [(f : Int), k0, k1] [0, 0, 0] = some (Spec.pad3 t) →
        k0 = l0 ∧ k1 = l1) ∧
      (∀ b : List (Int × Int), InBox b t → b.length = m.mh.dims.length → ∀ tuples,
        m.localFaceTuples b = some tuples → [(f : Int), l0, l1] ∈ tuples) := by
  obtain ⟨hcell, d, up, c, hs, hc, htd⟩ := ht
  have hnfe : m.mh.ncellsDimFine = 2 ^ m.mh.order := rfl
  have hf : f < m.numFaces := by
    rcases dims_cases hn with ⟨d0, d1, hd⟩ | ⟨d0, d1, d2, hd⟩
    · have h4 : m.numFaces = 4 := by simp [CartMesh.numFaces, CartMesh.ndim, MeshHierarchy.ndim, hd]
      rw [h4]
      by_contra h
      rw [hd] at hc
      match f, h, hs with
      | 4, _, hs => simp [Spec.sideOf] at hs; simp [← hs.1] at hc
      | 5, _, hs => simp [Spec.sideOf] at hs; simp [← hs.1] at hc
      | f + 6, _, hs => simp [Spec.sideOf] at hs
    · have h4 : m.numFaces = 6 := by simp [CartMesh.numFaces, CartMesh.ndim, MeshHierarchy.ndim, hd]
      rw [h4]
      by_contra h
      match f, h, hs with
      | f + 6, _, hs => simp [Spec.sideOf] at hs
  obtain ⟨s0, s1, hfd⟩ := faceDims_exists hm hn hf
  refine ⟨s0, s1, ?_⟩
  have hfd' := hfd
  obtain ⟨f1, f2, f3, f4, f5, f6⟩ := hfd
  unfold Spec.IsMeshCell at hcell
  rcases dims_cases hn with ⟨d0, d1, hd⟩ | ⟨d0, d1, d2, hd⟩
  · have h4 : m.numFaces = 4 := by simp [CartMesh.numFaces, CartMesh.ndim, MeshHierarchy.ndim, hd]
    have hnd : m.ndim = 2 := by simp [CartMesh.ndim, MeshHierarchy.ndim, hd]
    rw [h4] at f1
    unfold CartMesh.faceStrides0 at f3
    unfold CartMesh.faceStrides1 at f4
    rw [hd] at f3 f4 hcell hc
    simp only [hnfe] at f3 f4
    obtain ⟨x, l, hx, hr1, rfl⟩ := List.forall₂_cons_left_iff.mp hcell
    obtain ⟨y, l, hy, hr2, rfl⟩ := List.forall₂_cons_left_iff.mp hr1
    cases hr2
    beta_reduce at hx hy
    have hbox : ∀ b : List (Int × Int), InBox b [x, y] → ∃ b0 b1, b = [b0, b1] ∧
        (b0.1 ≤ x ∧ x < b0.2) ∧ (b1.1 ≤ y ∧ y < b1.2) := by
      intro b hb
      obtain ⟨b0, l, q1, hr, rfl⟩ := List.forall₂_cons_right_iff.mp hb
      obtain ⟨b1, l, q2, hr', rfl⟩ := List.forall₂_cons_right_iff.mp hr
      cases hr'
      exact ⟨b0, b1, rfl, q1, q2⟩
    unfold CartMesh.meshTupleOwningFace CartMesh.cellCounts CartMesh.localFaceTuples
    rw [hd, hnd, h4]
    match f, f1, f3, f4, hs with
    | 0, _, f3, f4, hs =>
      simp only [Spec.sideOf, Option.some.injEq, Prod.mk.injEq] at hs
      obtain ⟨rfl, rfl⟩ := hs
      simp at f3 f4 hc htd
      subst htd
      refine ⟨x, 0, hfd', by omega, by omega, by omega, by omega,
        by simp [rd, index, st, Spec.pad3, List.replicate], ?_, ?_⟩
      · intro k0 k1 g1 g2 h
        simp [rd, index, st, Spec.pad3, List.replicate] at h
        omega
      · intro b hb _ tuples htup
        obtain ⟨b0, b1, rfl, q1, q2⟩ := hbox b hb
        simp [rd, padBox, List.replicate, collectM, List.range_succ] at htup
        subst htup
        simp [mem_intRange]
        omega
    | 1, _, f3, f4, hs =>
      simp only [Spec.sideOf, Option.some.injEq, Prod.mk.injEq] at hs
      obtain ⟨rfl, rfl⟩ := hs
      simp at f3 f4 hc htd
      subst htd
      refine ⟨y, 0, hfd', by omega, by omega, by omega, by omega,
        by simp [rd, index, st, Spec.pad3, List.replicate, hc], ?_, ?_⟩
      · intro k0 k1 g1 g2 h
        simp [rd, index, st, Spec.pad3, List.replicate] at h
        omega
      · intro b hb _ tuples htup
        obtain ⟨b0, b1, rfl, q1, q2⟩ := hbox b hb
        simp [rd, padBox, List.replicate, collectM, List.range_succ] at htup
        subst htup
        simp [mem_intRange]
        omega
    | 2, _, f3, f4, hs =>
      simp only [Spec.sideOf, Option.some.injEq, Prod.mk.injEq] at hs
      obtain ⟨rfl, rfl⟩ := hs
      simp at f3 f4 hc htd
      subst htd
      refine ⟨x, 0, hfd', by omega, by omega, by omega, by omega,
        by simp [rd, index, st, Spec.pad3, List.replicate, hc], ?_, ?_⟩
      · intro k0 k1 g1 g2 h
        simp [rd, index, st, Spec.pad3, List.replicate] at h
        omega
      · intro b hb _ tuples htup
        obtain ⟨b0, b1, rfl, q1, q2⟩ := hbox b hb
        simp [rd, padBox, List.replicate, collectM, List.range_succ] at htup
        subst htup
        simp [mem_intRange]
        omega
    | 3, _, f3, f4, hs =>
      simp only [Spec.sideOf, Option.some.injEq, Prod.mk.injEq] at hs
      obtain ⟨rfl, rfl⟩ := hs
      simp at f3 f4 hc htd
      subst htd
      refine ⟨y, 0, hfd', by omega, by omega, by omega, by omega,
        by simp [rd, index, st, Spec.pad3, List.replicate], ?_, ?_⟩
      · intro k0 k1 g1 g2 h
        simp [rd, index, st, Spec.pad3, List.replicate] at h
        omega
      · intro b hb _ tuples htup
        obtain ⟨b0, b1, rfl, q1, q2⟩ := hbox b hb
        simp [rd, padBox, List.replicate, collectM, List.range_succ] at htup
        subst htup
        simp [mem_intRange]
        omega
  · have h4 : m.numFaces = 6 := by simp [CartMesh.numFaces, CartMesh.ndim, MeshHierarchy.ndim, hd]
    have hnd : m.ndim = 3 := by simp [CartMesh.ndim, MeshHierarchy.ndim, hd]
    rw [h4] at f1
    unfold CartMesh.faceStrides0 at f3
    unfold CartMesh.faceStrides1 at f4
    rw [hd] at f3 f4 hcell hc
    simp only [hnfe] at f3 f4
    obtain ⟨x, l, hx, hr1, rfl⟩ := List.forall₂_cons_left_iff.mp hcell
    obtain ⟨y, l, hy, hr2, rfl⟩ := List.forall₂_cons_left_iff.mp hr1
    obtain ⟨z, l, hz, hr3, rfl⟩ := List.forall₂_cons_left_iff.mp hr2
    cases hr3
    beta_reduce at hx hy hz
    have hbox : ∀ b : List (Int × Int), InBox b [x, y, z] → ∃ b0 b1 b2, b = [b0, b1, b2] ∧
        (b0.1 ≤ x ∧ x < b0.2) ∧ (b1.1 ≤ y ∧ y < b1.2) ∧ (b2.1 ≤ z ∧ z < b2.2) := by
      intro b hb
      obtain ⟨b0, l, q1, hr, rfl⟩ := List.forall₂_cons_right_iff.mp hb
      obtain ⟨b1, l, q2, hr', rfl⟩ := List.forall₂_cons_right_iff.mp hr
      obtain ⟨b2, l, q3, hr'', rfl⟩ := List.forall₂_cons_right_iff.mp hr'
      cases hr''
      exact ⟨b0, b1, b2, rfl, q1, q2, q3⟩
    unfold CartMesh.meshTupleOwningFace CartMesh.cellCounts CartMesh.localFaceTuples
    rw [hd, hnd, h4]
    match f, f1, f3, f4, hs with
    | 0, _, f3, f4, hs =>
      simp only [Spec.sideOf, Option.some.injEq, Prod.mk.injEq] at hs
      obtain ⟨rfl, rfl⟩ := hs
      simp at f3 f4 hc htd
      subst htd
      refine ⟨x, z, hfd', by omega, by omega, by omega, by omega,
        by simp [rd, index, st, Spec.pad3, hc], ?_, ?_⟩
      · intro k0 k1 g1 g2 h
        simp [rd, index, st, Spec.pad3] at h
        omega
      · intro b hb _ tuples htup
        obtain ⟨b0, b1, b2, rfl, q1, q2, q3⟩ := hbox b hb
        simp [rd, padBox, collectM, List.range_succ] at htup
        subst htup
        simp [mem_intRange]
        omega
    | 1, _, f3, f4, hs =>
      simp only [Spec.sideOf, Option.some.injEq, Prod.mk.injEq] at hs
      obtain ⟨rfl, rfl⟩ := hs
      simp at f3 f4 hc htd
      subst htd
      refine ⟨y, z, hfd', by omega, by omega, by omega, by omega,
        by simp [rd, index, st, Spec.pad3, hc], ?_, ?_⟩
      · intro k0 k1 g1 g2 h
        simp [rd, index, st, Spec.pad3] at h
        omega
      · intro b hb _ tuples htup
        obtain ⟨b0, b1, b2, rfl, q1, q2, q3⟩ := hbox b hb
        simp [rd, padBox, collectM, List.range_succ] at htup
        subst htup
        simp [mem_intRange]
        omega
    | 2, _, f3, f4, hs =>
      simp only [Spec.sideOf, Option.some.injEq, Prod.mk.injEq] at hs
      obtain ⟨rfl, rfl⟩ := hs
      simp at f3 f4 hc htd
      subst htd
      refine ⟨x, z, hfd', by omega, by omega, by omega, by omega,
        by simp [rd, index, st, Spec.pad3, hc], ?_, ?_⟩
      · intro k0 k1 g1 g2 h
        simp [rd, index, st, Spec.pad3] at h
        omega
      · intro b hb _ tuples htup
        obtain ⟨b0, b1, b2, rfl, q1, q2, q3⟩ := hbox b hb
        simp [rd, padBox, collectM, List.range_succ] at htup
        subst htup
        simp [mem_intRange]
        omega
    | 3, _, f3, f4, hs =>
      simp only [Spec.sideOf, Option.some.injEq, Prod.mk.injEq] at hs
      obtain ⟨rfl, rfl⟩ := hs
      simp at f3 f4 hc htd
      subst htd
      refine ⟨y, z, hfd', by omega, by omega, by omega, by omega,
        by simp [rd, index, st, Spec.pad3, hc], ?_, ?_⟩
      · intro k0 k1 g1 g2 h
        simp [rd, index, st, Spec.pad3] at h
        omega
      · intro b hb _ tuples htup
        obtain ⟨b0, b1, b2, rfl, q1, q2, q3⟩ := hbox b hb
        simp [rd, padBox, collectM, List.range_succ] at htup
        subst htup
        simp [mem_intRange]
        omega
    | 4, _, f3, f4, hs =>
      simp only [Spec.sideOf, Option.some.injEq, Prod.mk.injEq] at hs
      obtain ⟨rfl, rfl⟩ := hs
      simp at f3 f4 hc htd
      subst htd
      refine ⟨x, y, hfd', by omega, by omega, by omega, by omega,
        by simp [rd, index, st, Spec.pad3, hc], ?_, ?_⟩
      · intro k0 k1 g1 g2 h
        simp [rd, index, st, Spec.pad3] at h
        omega
      · intro b hb _ tuples htup
        obtain ⟨b0, b1, b2, rfl, q1, q2, q3⟩ := hbox b hb
        simp [rd, padBox, collectM, List.range_succ] at htup
        subst htup
        simp [mem_intRange]
        omega
    | 5, _, f3, f4, hs =>
      simp only [Spec.sideOf, Option.some.injEq, Prod.mk.injEq] at hs
      obtain ⟨rfl, rfl⟩ := hs
      simp at f3 f4 hc htd
      subst htd
      refine ⟨x, y, hfd', by omega, by omega, by omega, by omega,
        by simp [rd, index, st, Spec.pad3, hc], ?_, ?_⟩
      · intro k0 k1 g1 g2 h
        simp [rd, index, st, Spec.pad3] at h
        omega
      · intro b hb _ tuples htup
        obtain ⟨b0, b1, b2, rfl, q1, q2, q3⟩ := hbox b hb
        simp [rd, padBox, collectM, List.range_succ] at htup
        subst htup
        simp [mem_intRange]
        omega

end NP
