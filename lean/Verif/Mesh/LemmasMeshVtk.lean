import Verif.Mesh.SpecMeshVtk
import Verif.Mesh.PropsFace
import Verif.Containers.LemmasArray
import Mathlib.Tactic.IntervalCases

/-!
# Lemmas about Cartesian meshes as unstructured grids
-/

set_option autoImplicit false

namespace NP
open NP.Spec

/-- Points that differ in the first, second or third coordinate. -/
theorem edge0 {x x' y z : Int} (h : x ≠ x') : AxisEdge [x, y, z] [x', y, z] :=
  ⟨0, by simpa using h, fun e he => by cases e with | zero => exact absurd rfl he | succ e => rfl⟩

theorem edge1 {x y y' z : Int} (h : y ≠ y') : AxisEdge [x, y, z] [x, y', z] :=
  ⟨1, by simpa using h, fun e he => by
    rcases e with _ | _ | e
    · rfl
    · exact absurd rfl he
    · rfl⟩

theorem edge2 {x y z z' : Int} (h : z ≠ z') : AxisEdge [x, y, z] [x, y, z'] :=
  ⟨2, by simpa using h, fun e he => by
    rcases e with _ | _ | _ | e
    · rfl
    · rfl
    · exact absurd rfl he
    · rfl⟩

/-- Quadrilaterals in planes across the axes. -/
theorem quad01 {x x' y y' z : Int} (hx : x ≠ x') (hy : y ≠ y') :
    IsVtkQuad [[x, y, z], [x', y, z], [x', y', z], [x, y', z]] :=
  ⟨_, _, _, _, rfl, by simp [hx, hy, Ne.symm hx], edge0 hx, edge1 hy, edge0 (Ne.symm hx), edge1 (Ne.symm hy)⟩

theorem quad02 {x x' y z z' : Int} (hx : x ≠ x') (hz : z ≠ z') :
    IsVtkQuad [[x, y, z], [x', y, z], [x', y, z'], [x, y, z']] :=
  ⟨_, _, _, _, rfl, by simp [hx, hz, Ne.symm hx], edge0 hx, edge2 hz, edge0 (Ne.symm hx), edge2 (Ne.symm hz)⟩

theorem quad12 {x y y' z z' : Int} (hy : y ≠ y') (hz : z ≠ z') :
    IsVtkQuad [[x, y, z], [x, y', z], [x, y', z'], [x, y, z']] :=
  ⟨_, _, _, _, rfl, by simp [hy, hz, Ne.symm hy], edge1 hy, edge2 hz, edge1 (Ne.symm hy), edge2 (Ne.symm hz)⟩

/-- The corners of a cell in two dimensions. -/
theorem vtkTuplePoints_two (w i j k : Int) : vtkTuplePoints 2 w [i, j, k] = some
    ([[i * w, j * w, k * w], [i * w + w, j * w, k * w], [i * w + w, j * w + w, k * w],
      [i * w, j * w + w, k * w]].flatten) := by
  simp [vtkTuplePoints, vtkOffsets, runItems, forLoop, List.range', rd]

/-- The corners of a cell in three dimensions. -/
theorem vtkTuplePoints_three (w i j k : Int) : vtkTuplePoints 3 w [i, j, k] = some
    ([[i * w, j * w, k * w], [i * w + w, j * w, k * w], [i * w + w, j * w + w, k * w],
      [i * w, j * w + w, k * w],
      [i * w, j * w, k * w + w], [i * w + w, j * w, k * w + w], [i * w + w, j * w + w, k * w + w],
      [i * w, j * w + w, k * w + w]].flatten) := by
  simp [vtkTuplePoints, vtkOffsets, runItems, forLoop, List.range', rd]

theorem isCorner_two {w i j : Int} {p : List Int} : IsCorner w [i, j] p ↔
    ∃ x y, p = [x, y, 0] ∧ (x = i * w ∨ x = i * w + w) ∧ (y = j * w ∨ y = j * w + w) := by
  have hi : (i + 1) * w = i * w + w := by rw [Int.add_mul, Int.one_mul]
  have hj : (j + 1) * w = j * w + w := by rw [Int.add_mul, Int.one_mul]
  constructor
  · rintro ⟨h1, h2⟩
    match p, h1 with
    | [x, y, z], _ =>
      have a := h2 0 x rfl
      have b := h2 1 y rfl
      have c := h2 2 z rfl
      simp only [List.getElem?_cons_zero, List.getElem?_cons_succ, List.getElem?_nil, hi, hj] at a b c
      exact ⟨x, y, by rw [c], a, b⟩
  · rintro ⟨x, y, rfl, hx, hy⟩
    refine ⟨rfl, fun d v hv => ?_⟩
    rcases d with _ | _ | _ | d
    · simp at hv; subst hv; simpa [hi] using hx
    · simp at hv; subst hv; simpa [hj] using hy
    · simp at hv; subst hv; simp
    · simp at hv

theorem isCorner_three {w i j k : Int} {p : List Int} : IsCorner w [i, j, k] p ↔
    ∃ x y z, p = [x, y, z] ∧ (x = i * w ∨ x = i * w + w) ∧ (y = j * w ∨ y = j * w + w) ∧
      (z = k * w ∨ z = k * w + w) := by
  have hi : (i + 1) * w = i * w + w := by rw [Int.add_mul, Int.one_mul]
  have hj : (j + 1) * w = j * w + w := by rw [Int.add_mul, Int.one_mul]
  have hk : (k + 1) * w = k * w + w := by rw [Int.add_mul, Int.one_mul]
  constructor
  · rintro ⟨h1, h2⟩
    match p, h1 with
    | [x, y, z], _ =>
      have a := h2 0 x rfl
      have b := h2 1 y rfl
      have c := h2 2 z rfl
      simp only [List.getElem?_cons_zero, List.getElem?_cons_succ, hi, hj, hk] at a b c
      exact ⟨x, y, z, rfl, a, b, c⟩
  · rintro ⟨x, y, z, rfl, hx, hy, hz⟩
    refine ⟨rfl, fun d v hv => ?_⟩
    rcases d with _ | _ | _ | d
    · simp at hv; subst hv; simpa [hi] using hx
    · simp at hv; subst hv; simpa [hj] using hy
    · simp at hv; subst hv; simpa [hk] using hz
    · simp at hv

/-- A cell in two dimensions. -/
theorem vtkCell_two {w i j : Int} (hw : 0 < w) : ∃ pts, vtkTuplePoints 2 w [i, j, 0] = some pts ∧
    IsVtkOfCell w [i, j] ⟨4, pts, 9, [], []⟩ := by
  refine ⟨_, vtkTuplePoints_two w i j 0, _, ⟨rfl, by simp, rfl, Or.inr (Or.inl ⟨rfl, ?_⟩), rfl, rfl⟩, ?_, rfl⟩
  · exact quad01 (by omega) (by omega)
  · intro p
    rw [isCorner_two]
    generalize i * w = a
    generalize j * w = b
    simp only [List.mem_cons, List.not_mem_nil, or_false, Int.zero_mul]
    constructor
    · rintro (rfl | rfl | rfl | rfl) <;> exact ⟨_, _, rfl, by simp, by simp⟩
    · rintro ⟨x, y, rfl, rfl | rfl, rfl | rfl⟩ <;> simp

/-- A cell in three dimensions. -/
theorem vtkCell_three {w i j k : Int} (hw : 0 < w) : ∃ pts, vtkTuplePoints 3 w [i, j, k] = some pts ∧
    IsVtkOfCell w [i, j, k] ⟨8, pts, 12, [], []⟩ := by
  refine ⟨_, vtkTuplePoints_three w i j k, _, ⟨rfl, by simp, rfl, Or.inr (Or.inr ⟨rfl, ?_⟩), rfl, rfl⟩, ?_, rfl⟩
  · refine ⟨_, _, _, _, _, _, _, _, rfl, ?_, quad01 (by omega) (by omega), quad01 (by omega) (by omega),
      edge2 (by omega), edge2 (by omega), edge2 (by omega), edge2 (by omega)⟩
    have : w ≠ 0 := by omega
    simp [this]
  · intro p
    rw [isCorner_three]
    generalize i * w = a
    generalize j * w = b
    generalize k * w = c
    simp only [List.mem_cons, List.not_mem_nil, or_false]
    constructor
    · rintro (rfl | rfl | rfl | rfl | rfl | rfl | rfl | rfl) <;> exact ⟨_, _, _, rfl, by simp, by simp, by simp⟩
    · rintro ⟨x, y, z, rfl, rfl | rfl, rfl | rfl, rfl | rfl⟩ <;> simp

/-- The side of the domain in terms of the cell on it. -/
theorem onPlane_iff {m : CartMesh} {w : Int} {f d : Nat} {up : Bool} {t : List Int} (hs : OnSide m f t)
    (hf : sideOf f = some (d, up)) :
    ∃ i, t[d]? = some i ∧ ∀ p, OnPlane m w f p ↔ p[d]? = some (if up then i * w + w else i * w) := by
  obtain ⟨-, d', up', c, h1, h2, h3⟩ := hs
  rw [hf, Option.some.injEq, Prod.mk.injEq] at h1
  obtain ⟨rfl, rfl⟩ := h1
  refine ⟨_, h3, fun p => ?_⟩
  have hv : (if up = true then (if up = true then c - 1 else 0) * w + w else (if up = true then c - 1 else 0) * w) =
      if up = true then c * w else 0 := by
    cases up
    · simp
    · simp only [if_true, Int.sub_mul, Int.one_mul]; omega
  rw [hv]
  constructor
  · rintro ⟨d', up', c', g1, g2, g3⟩
    rw [hf, Option.some.injEq, Prod.mk.injEq] at g1
    obtain ⟨rfl, rfl⟩ := g1
    rw [h2, Option.some.injEq] at g2
    rw [g2, g3]
  · intro g
    exact ⟨d, up, c, hf, h2, g⟩

/-- The sides of the domain. -/
theorem sideOf_lt {f d : Nat} {up : Bool} (h : sideOf f = some (d, up)) : f < 6 := by
  by_contra hf
  obtain ⟨k, rfl⟩ : ∃ k, f = k + 6 := ⟨f - 6, by omega⟩
  simp [sideOf] at h

/-- A face in two dimensions. -/
theorem vtkFace_two {m : CartMesh} {w i j : Int} {f : Nat} (hw : 0 < w) (hs : OnSide m f [i, j]) :
    ∃ cellPts pts, vtkTuplePoints 2 w [i, j, 0] = some cellPts ∧ facePoints faceCorners2 2 f cellPts = some pts ∧
      IsVtkOfFace m w f [i, j] ⟨2, pts, 3, [], []⟩ := by
  obtain ⟨d, up, c, hf, -, ht⟩ := hs.2
  have hf6 := sideOf_lt hf
  obtain ⟨v, hv, hplane⟩ := onPlane_iff (w := w) hs hf
  interval_cases f <;> simp only [sideOf, Option.some.injEq, Prod.mk.injEq] at hf <;> obtain ⟨rfl, rfl⟩ := hf <;>
    simp only [List.getElem?_cons_zero, List.getElem?_cons_succ, List.getElem?_nil, Option.some.injEq,
      reduceCtorEq] at hv
  · subst hv
    refine ⟨_, [i * w, j * w, 0 * w, i * w + w, j * w, 0 * w], vtkTuplePoints_two w i j 0, rfl,
      [[i * w, j * w, 0 * w], [i * w + w, j * w, 0 * w]],
      ⟨rfl, by simp, rfl, Or.inl ⟨rfl, _, _, rfl, edge0 (by omega)⟩, rfl, rfl⟩, fun p => ?_, rfl⟩
    rw [isCorner_two, hplane]
    generalize i * w = a
    generalize j * w = b
    simp only [List.mem_cons, List.not_mem_nil, or_false, Int.zero_mul]
    constructor
    · rintro (rfl | rfl) <;> exact ⟨⟨_, _, rfl, by simp, by simp⟩, by simp⟩
    · rintro ⟨⟨x, y, rfl, rfl | rfl, rfl | rfl⟩, h⟩ <;> simp at h ⊢ <;> omega
  · subst hv
    refine ⟨_, [i * w + w, j * w, 0 * w, i * w + w, j * w + w, 0 * w], vtkTuplePoints_two w i j 0, rfl,
      [[i * w + w, j * w, 0 * w], [i * w + w, j * w + w, 0 * w]],
      ⟨rfl, by simp, rfl, Or.inl ⟨rfl, _, _, rfl, edge1 (by omega)⟩, rfl, rfl⟩, fun p => ?_, rfl⟩
    rw [isCorner_two, hplane]
    generalize i * w = a
    generalize j * w = b
    simp only [List.mem_cons, List.not_mem_nil, or_false, Int.zero_mul]
    constructor
    · rintro (rfl | rfl) <;> exact ⟨⟨_, _, rfl, by simp, by simp⟩, by simp⟩
    · rintro ⟨⟨x, y, rfl, rfl | rfl, rfl | rfl⟩, h⟩ <;> simp at h ⊢ <;> omega
  · subst hv
    refine ⟨_, [i * w, j * w + w, 0 * w, i * w + w, j * w + w, 0 * w], vtkTuplePoints_two w i j 0, rfl,
      [[i * w, j * w + w, 0 * w], [i * w + w, j * w + w, 0 * w]],
      ⟨rfl, by simp, rfl, Or.inl ⟨rfl, _, _, rfl, edge0 (by omega)⟩, rfl, rfl⟩, fun p => ?_, rfl⟩
    rw [isCorner_two, hplane]
    generalize i * w = a
    generalize j * w = b
    simp only [List.mem_cons, List.not_mem_nil, or_false, Int.zero_mul]
    constructor
    · rintro (rfl | rfl) <;> exact ⟨⟨_, _, rfl, by simp, by simp⟩, by simp⟩
    · rintro ⟨⟨x, y, rfl, rfl | rfl, rfl | rfl⟩, h⟩ <;> simp at h ⊢ <;> omega
  · subst hv
    refine ⟨_, [i * w, j * w, 0 * w, i * w, j * w + w, 0 * w], vtkTuplePoints_two w i j 0, rfl,
      [[i * w, j * w, 0 * w], [i * w, j * w + w, 0 * w]],
      ⟨rfl, by simp, rfl, Or.inl ⟨rfl, _, _, rfl, edge1 (by omega)⟩, rfl, rfl⟩, fun p => ?_, rfl⟩
    rw [isCorner_two, hplane]
    generalize i * w = a
    generalize j * w = b
    simp only [List.mem_cons, List.not_mem_nil, or_false, Int.zero_mul]
    constructor
    · rintro (rfl | rfl) <;> exact ⟨⟨_, _, rfl, by simp, by simp⟩, by simp⟩
    · rintro ⟨⟨x, y, rfl, rfl | rfl, rfl | rfl⟩, h⟩ <;> simp at h ⊢ <;> omega

/-- A face in three dimensions. -/
theorem vtkFace_three {m : CartMesh} {w i j k : Int} {f : Nat} (hw : 0 < w) (hs : OnSide m f [i, j, k]) :
    ∃ cellPts pts, vtkTuplePoints 3 w [i, j, k] = some cellPts ∧ facePoints faceCorners3 4 f cellPts = some pts ∧
      IsVtkOfFace m w f [i, j, k] ⟨4, pts, 9, [], []⟩ := by
  obtain ⟨d, up, c, hf, -, ht⟩ := hs.2
  have hf6 := sideOf_lt hf
  obtain ⟨v, hv, hplane⟩ := onPlane_iff (w := w) hs hf
  interval_cases f <;> simp only [sideOf, Option.some.injEq, Prod.mk.injEq] at hf <;> obtain ⟨rfl, rfl⟩ := hf <;>
    simp only [List.getElem?_cons_zero, List.getElem?_cons_succ, Option.some.injEq] at hv
  · subst hv
    refine ⟨_, ([[i * w, j * w, k * w],
        [i * w + w, j * w, k * w],
        [i * w + w, j * w, k * w + w],
        [i * w, j * w, k * w + w]] : List (List Int)).flatten, vtkTuplePoints_three w i j k, rfl, _,
      ⟨rfl, by simp, rfl, Or.inr (Or.inl ⟨rfl, quad02 (by omega) (by omega)⟩), rfl, rfl⟩, fun p => ?_, rfl⟩
    rw [isCorner_three, hplane]
    generalize i * w = a
    generalize j * w = b
    generalize k * w = c
    simp only [List.mem_cons, List.not_mem_nil, or_false]
    constructor
    · rintro (rfl | rfl | rfl | rfl) <;> exact ⟨⟨_, _, _, rfl, by simp, by simp, by simp⟩, by simp⟩
    · rintro ⟨⟨x, y, z, rfl, rfl | rfl, rfl | rfl, rfl | rfl⟩, h⟩ <;> simp at h ⊢ <;> omega
  · subst hv
    refine ⟨_, ([[i * w + w, j * w, k * w],
        [i * w + w, j * w + w, k * w],
        [i * w + w, j * w + w, k * w + w],
        [i * w + w, j * w, k * w + w]] : List (List Int)).flatten, vtkTuplePoints_three w i j k, rfl, _,
      ⟨rfl, by simp, rfl, Or.inr (Or.inl ⟨rfl, quad12 (by omega) (by omega)⟩), rfl, rfl⟩, fun p => ?_, rfl⟩
    rw [isCorner_three, hplane]
    generalize i * w = a
    generalize j * w = b
    generalize k * w = c
    simp only [List.mem_cons, List.not_mem_nil, or_false]
    constructor
    · rintro (rfl | rfl | rfl | rfl) <;> exact ⟨⟨_, _, _, rfl, by simp, by simp, by simp⟩, by simp⟩
    · rintro ⟨⟨x, y, z, rfl, rfl | rfl, rfl | rfl, rfl | rfl⟩, h⟩ <;> simp at h ⊢ <;> omega
  · subst hv
    refine ⟨_, ([[i * w, j * w + w, k * w],
        [i * w + w, j * w + w, k * w],
        [i * w + w, j * w + w, k * w + w],
        [i * w, j * w + w, k * w + w]] : List (List Int)).flatten, vtkTuplePoints_three w i j k, rfl, _,
      ⟨rfl, by simp, rfl, Or.inr (Or.inl ⟨rfl, quad02 (by omega) (by omega)⟩), rfl, rfl⟩, fun p => ?_, rfl⟩
    rw [isCorner_three, hplane]
    generalize i * w = a
    generalize j * w = b
    generalize k * w = c
    simp only [List.mem_cons, List.not_mem_nil, or_false]
    constructor
    · rintro (rfl | rfl | rfl | rfl) <;> exact ⟨⟨_, _, _, rfl, by simp, by simp, by simp⟩, by simp⟩
    · rintro ⟨⟨x, y, z, rfl, rfl | rfl, rfl | rfl, rfl | rfl⟩, h⟩ <;> simp at h ⊢ <;> omega
  · subst hv
    refine ⟨_, ([[i * w, j * w, k * w],
        [i * w, j * w + w, k * w],
        [i * w, j * w + w, k * w + w],
        [i * w, j * w, k * w + w]] : List (List Int)).flatten, vtkTuplePoints_three w i j k, rfl, _,
      ⟨rfl, by simp, rfl, Or.inr (Or.inl ⟨rfl, quad12 (by omega) (by omega)⟩), rfl, rfl⟩, fun p => ?_, rfl⟩
    rw [isCorner_three, hplane]
    generalize i * w = a
    generalize j * w = b
    generalize k * w = c
    simp only [List.mem_cons, List.not_mem_nil, or_false]
    constructor
    · rintro (rfl | rfl | rfl | rfl) <;> exact ⟨⟨_, _, _, rfl, by simp, by simp, by simp⟩, by simp⟩
    · rintro ⟨⟨x, y, z, rfl, rfl | rfl, rfl | rfl, rfl | rfl⟩, h⟩ <;> simp at h ⊢ <;> omega
  · subst hv
    refine ⟨_, ([[i * w, j * w, k * w],
        [i * w + w, j * w, k * w],
        [i * w + w, j * w + w, k * w],
        [i * w, j * w + w, k * w]] : List (List Int)).flatten, vtkTuplePoints_three w i j k, rfl, _,
      ⟨rfl, by simp, rfl, Or.inr (Or.inl ⟨rfl, quad01 (by omega) (by omega)⟩), rfl, rfl⟩, fun p => ?_, rfl⟩
    rw [isCorner_three, hplane]
    generalize i * w = a
    generalize j * w = b
    generalize k * w = c
    simp only [List.mem_cons, List.not_mem_nil, or_false]
    constructor
    · rintro (rfl | rfl | rfl | rfl) <;> exact ⟨⟨_, _, _, rfl, by simp, by simp, by simp⟩, by simp⟩
    · rintro ⟨⟨x, y, z, rfl, rfl | rfl, rfl | rfl, rfl | rfl⟩, h⟩ <;> simp at h ⊢ <;> omega
  · subst hv
    refine ⟨_, ([[i * w, j * w, k * w + w],
        [i * w + w, j * w, k * w + w],
        [i * w + w, j * w + w, k * w + w],
        [i * w, j * w + w, k * w + w]] : List (List Int)).flatten, vtkTuplePoints_three w i j k, rfl, _,
      ⟨rfl, by simp, rfl, Or.inr (Or.inl ⟨rfl, quad01 (by omega) (by omega)⟩), rfl, rfl⟩, fun p => ?_, rfl⟩
    rw [isCorner_three, hplane]
    generalize i * w = a
    generalize j * w = b
    generalize k * w = c
    simp only [List.mem_cons, List.not_mem_nil, or_false]
    constructor
    · rintro (rfl | rfl | rfl | rfl) <;> exact ⟨⟨_, _, _, rfl, by simp, by simp, by simp⟩, by simp⟩
    · rintro ⟨⟨x, y, z, rfl, rfl | rfl, rfl | rfl, rfl | rfl⟩, h⟩ <;> simp at h ⊢ <;> omega

end NP
