import Verif.Mesh.LemmasPlot
import Mathlib.Tactic.IntervalCases
import Mathlib.Tactic.Push

/-!
# Lemmas about plots of the cells of a mesh hierarchy: the edges of cells
-/

set_option autoImplicit false

namespace NP
open NP.Spec

/-- Coordinates in the form of the code. -/
def vertOf (x : List Int) : PlotVert := ((x[0]?).getD 0, (x[1]?).getD 0, (x[2]?).getD 0)

def originOf (o : List ℚ) : ℚ × ℚ × ℚ := ((o[0]?).getD 0, (o[1]?).getD 0, (o[2]?).getD 0)

/-- Either end. -/
def IsEnd01 (w : ℚ) (o : ℚ) (i : Int) (p q : ℚ) : Prop := q = p ∧ (p = i * w + o ∨ p = (i + 1) * w + o)

/-- From the lower to the upper end. -/
def IsSpan (w : ℚ) (o : ℚ) (i : Int) (p q : ℚ) : Prop := p = i * w + o ∧ q = (i + 1) * w + o

theorem isCellEdge_one {w a : ℚ} {i : Int} {p q : List ℚ} : IsCellEdge w [a] [i] p q ↔
    ∃ p0 q0, p = [p0, 0, 0] ∧ q = [q0, 0, 0] ∧ IsSpan w a i p0 q0 := by
  constructor
  · rintro ⟨h1, h2, d, hd, h⟩
    match p, h1, q, h2 with
    | [p0, p1, p2], _, [q0, q1, q2], _ =>
      have e0 := h 0 (by omega)
      have e1 := h 1 (by omega)
      have e2 := h 2 (by omega)
      simp only [List.length_cons, List.length_nil] at hd
      interval_cases d
      simp at e0 e1 e2
      exact ⟨p0, q0, by rw [e1.1, e2.1], by rw [e1.2, e2.2], e0⟩
  · rintro ⟨p0, q0, rfl, rfl, h1, h2⟩
    refine ⟨rfl, rfl, 0, by simp, fun e he => ?_⟩
    interval_cases e <;> simp [h1, h2]

theorem isCellEdge_two {w a b : ℚ} {i j : Int} {p q : List ℚ} : IsCellEdge w [a, b] [i, j] p q ↔
    ∃ p0 p1 q0 q1, p = [p0, p1, 0] ∧ q = [q0, q1, 0] ∧
      ((IsSpan w a i p0 q0 ∧ IsEnd01 w b j p1 q1) ∨ (IsEnd01 w a i p0 q0 ∧ IsSpan w b j p1 q1)) := by
  constructor
  · rintro ⟨h1, h2, d, hd, h⟩
    match p, h1, q, h2 with
    | [p0, p1, p2], _, [q0, q1, q2], _ =>
      have e0 := h 0 (by omega)
      have e1 := h 1 (by omega)
      have e2 := h 2 (by omega)
      simp only [List.length_cons, List.length_nil] at hd
      interval_cases d <;> simp at e0 e1 e2
      · exact ⟨p0, p1, q0, q1, by rw [e2.1], by rw [e2.2], Or.inl ⟨e0, e1⟩⟩
      · exact ⟨p0, p1, q0, q1, by rw [e2.1], by rw [e2.2], Or.inr ⟨e0, e1⟩⟩
  · rintro ⟨p0, p1, q0, q1, rfl, rfl, h | h⟩
    · refine ⟨rfl, rfl, 0, by simp, fun e he => ?_⟩
      obtain ⟨⟨h1, h2⟩, h3, h4⟩ := h
      interval_cases e <;> simp [h1, h2, h3, h4]
    · refine ⟨rfl, rfl, 1, by simp, fun e he => ?_⟩
      obtain ⟨⟨h3, h4⟩, h1, h2⟩ := h
      interval_cases e <;> simp [h1, h2, h3, h4]

theorem isCellEdge_three {w a b c : ℚ} {i j k : Int} {p q : List ℚ} : IsCellEdge w [a, b, c] [i, j, k] p q ↔
    ∃ p0 p1 p2 q0 q1 q2, p = [p0, p1, p2] ∧ q = [q0, q1, q2] ∧
      ((IsSpan w a i p0 q0 ∧ IsEnd01 w b j p1 q1 ∧ IsEnd01 w c k p2 q2) ∨
       (IsEnd01 w a i p0 q0 ∧ IsSpan w b j p1 q1 ∧ IsEnd01 w c k p2 q2) ∨
       (IsEnd01 w a i p0 q0 ∧ IsEnd01 w b j p1 q1 ∧ IsSpan w c k p2 q2)) := by
  constructor
  · rintro ⟨h1, h2, d, hd, h⟩
    match p, h1, q, h2 with
    | [p0, p1, p2], _, [q0, q1, q2], _ =>
      have e0 := h 0 (by omega)
      have e1 := h 1 (by omega)
      have e2 := h 2 (by omega)
      simp only [List.length_cons, List.length_nil] at hd
      interval_cases d <;> simp at e0 e1 e2
      · exact ⟨p0, p1, p2, q0, q1, q2, rfl, rfl, Or.inl ⟨e0, e1, e2⟩⟩
      · exact ⟨p0, p1, p2, q0, q1, q2, rfl, rfl, Or.inr (Or.inl ⟨e0, e1, e2⟩)⟩
      · exact ⟨p0, p1, p2, q0, q1, q2, rfl, rfl, Or.inr (Or.inr ⟨e0, e1, e2⟩)⟩
  · rintro ⟨p0, p1, p2, q0, q1, q2, rfl, rfl, h | h | h⟩
    · refine ⟨rfl, rfl, 0, by simp, fun e he => ?_⟩
      obtain ⟨⟨h1, h2⟩, ⟨h3, h4⟩, h5, h6⟩ := h
      interval_cases e <;> simp [h1, h2, h3, h4, h5, h6]
    · refine ⟨rfl, rfl, 1, by simp, fun e he => ?_⟩
      obtain ⟨⟨h3, h4⟩, ⟨h1, h2⟩, h5, h6⟩ := h
      interval_cases e <;> simp [h1, h2, h3, h4, h5, h6]
    · refine ⟨rfl, rfl, 2, by simp, fun e he => ?_⟩
      obtain ⟨⟨h3, h4⟩, ⟨h5, h6⟩, h1, h2⟩ := h
      interval_cases e <;> simp [h1, h2, h3, h4, h5, h6]

/-- The lines of a cell are its edges. -/
theorem plotLines_edges {w : ℚ} {origin : List ℚ} {x : List Int} (h1 : 1 ≤ x.length) (h3 : x.length ≤ 3)
    (ho : origin.length = x.length) (p q : List ℚ) :
    (∃ l ∈ plotLines x.length (vertOf x), p = vertAt w (originOf origin) l.1 ∧ q = vertAt w (originOf origin) l.2) ↔
      IsCellEdge w origin x p q := by
  match x, origin, ho with
  | [], _, _ => simp at h1
  | [i], [a], _ =>
    rw [isCellEdge_one]
    simp only [plotLines, vertOf, vertAt, originOf, List.length_cons, List.length_nil, List.getElem?_cons_zero,
      List.getElem?_cons_succ, List.getElem?_nil, Option.getD_some, Option.getD_none, IsSpan, IsEnd01, Int.cast_add,
      Int.cast_one, Int.cast_zero, zero_mul, zero_add, Nat.reduceAdd, gt_iff_lt, Nat.lt_irrefl, Nat.reduceLT, if_true,
      if_false, reduceIte, List.append_nil, List.cons_append, List.nil_append, List.mem_cons, List.not_mem_nil, or_false,
      exists_eq_or_imp, exists_eq_left]
    generalize (i : ℚ) * w + a = A
    generalize ((i : ℚ) + 1) * w + a = A'
    constructor
    · rintro ⟨rfl, rfl⟩
      exact ⟨_, _, rfl, rfl, rfl, rfl⟩
    · rintro ⟨p0, q0, rfl, rfl, rfl, rfl⟩
      exact ⟨rfl, rfl⟩
  | [i, j], [a, b], _ =>
    rw [isCellEdge_two]
    simp only [plotLines, vertOf, vertAt, originOf, List.length_cons, List.length_nil, List.getElem?_cons_zero,
      List.getElem?_cons_succ, List.getElem?_nil, Option.getD_some, Option.getD_none, IsSpan, IsEnd01, Int.cast_add,
      Int.cast_one, Int.cast_zero, zero_mul, zero_add, Nat.reduceAdd, gt_iff_lt, Nat.lt_irrefl, Nat.reduceLT, if_true,
      if_false, reduceIte, List.append_nil, List.cons_append, List.nil_append, List.mem_cons, List.not_mem_nil, or_false,
      exists_eq_or_imp, exists_eq_left]
    generalize (i : ℚ) * w + a = A
    generalize ((i : ℚ) + 1) * w + a = A'
    generalize (j : ℚ) * w + b = B
    generalize ((j : ℚ) + 1) * w + b = B'
    constructor
    · rintro (⟨rfl, rfl⟩ | ⟨rfl, rfl⟩ | ⟨rfl, rfl⟩ | ⟨rfl, rfl⟩) <;> exact ⟨_, _, _, _, rfl, rfl, by simp⟩
    · rintro ⟨p0, p1, q0, q1, rfl, rfl, ⟨⟨rfl, rfl⟩, rfl, rfl | rfl⟩ | ⟨⟨rfl, rfl | rfl⟩, rfl, rfl⟩⟩ <;> simp
  | [i, j, k], [a, b, c], _ =>
    rw [isCellEdge_three]
    simp only [plotLines, vertOf, vertAt, originOf, List.length_cons, List.length_nil, List.getElem?_cons_zero,
      List.getElem?_cons_succ, List.getElem?_nil, Option.getD_some, Option.getD_none, IsSpan, IsEnd01, Int.cast_add,
      Int.cast_one, Int.cast_zero, zero_mul, zero_add, Nat.reduceAdd, gt_iff_lt, Nat.lt_irrefl, Nat.reduceLT, if_true,
      if_false, reduceIte, List.append_nil, List.cons_append, List.nil_append, List.mem_cons, List.not_mem_nil, or_false,
      exists_eq_or_imp, exists_eq_left]
    generalize (i : ℚ) * w + a = A
    generalize ((i : ℚ) + 1) * w + a = A'
    generalize (j : ℚ) * w + b = B
    generalize ((j : ℚ) + 1) * w + b = B'
    generalize (k : ℚ) * w + c = C
    generalize ((k : ℚ) + 1) * w + c = C'
    constructor
    · rintro (⟨rfl, rfl⟩ | ⟨rfl, rfl⟩ | ⟨rfl, rfl⟩ | ⟨rfl, rfl⟩ | ⟨rfl, rfl⟩ | ⟨rfl, rfl⟩ | ⟨rfl, rfl⟩ | ⟨rfl, rfl⟩ |
        ⟨rfl, rfl⟩ | ⟨rfl, rfl⟩ | ⟨rfl, rfl⟩ | ⟨rfl, rfl⟩) <;> exact ⟨_, _, _, _, _, _, rfl, rfl, by simp⟩
    · rintro ⟨p0, p1, p2, q0, q1, q2, rfl, rfl, ⟨⟨rfl, rfl⟩, ⟨rfl, rfl | rfl⟩, rfl, rfl | rfl⟩ |
        ⟨⟨rfl, rfl | rfl⟩, ⟨rfl, rfl⟩, rfl, rfl | rfl⟩ | ⟨⟨rfl, rfl | rfl⟩, ⟨rfl, rfl | rfl⟩, rfl, rfl⟩⟩ <;> simp
  | _ :: _ :: _ :: _ :: _, _, _ => simp at h3

/-- The base corner of a fine cell. -/
theorem plotTuple_spec {mh : MeshHierarchy} (h : ValidMesh mh) (h3 : mh.dims.length ≤ 3) {c : Int} (h0 : 0 ≤ c)
    (hc : c < mh.ncellsGlobal) : ∃ x, IsCellAt mh x c ∧ x.length = mh.dims.length ∧
      plotTuple mh c = some (vertOf x) := by
  obtain ⟨cs, fs, h1, h2, h4, h5⟩ := linearToTupleGlobal_spec h h0 hc
  have l1 : cs.length = mh.dims.length := h2.length_eq.symm
  have l2 : fs.length = mh.dims.length := by have := h4.length_eq; simpa [MeshHierarchy.ndim] using this.symm
  refine ⟨_, ⟨cs, fs, h2, h4, by rw [tupleToLinearGlobal_eq h h2 h4, h5], rfl⟩, ?_, ?_⟩
  · rw [List.length_zipWith, l1, l2, Nat.min_self]
  · unfold plotTuple
    rw [h1, Option.bind_some]
    have hne : mh.dims.length ≠ 0 := fun e => h.1 (List.length_eq_zero_iff.mp e)
    generalize hn : mh.ncellsDimFine = nf
    have hnd : mh.ndim = mh.dims.length := rfl
    rw [hnd]
    generalize mh.dims.length = n at *
    match cs, fs, n, l1, l2 with
    | [], [], 0, _, _ => exact absurd rfl hne
    | [a], [b], 1, _, _ => rfl
    | [a, a'], [b, b'], 2, _, _ => rfl
    | [a, a', a''], [b, b', b''], 3, _, _ => rfl
    | _ :: _ :: _ :: _ :: _, _, _, l, _ => simp only [List.length_cons] at l; omega

/-- The origin. -/
theorem plotOrigin_spec {n : Nat} {g : PlotGeom} (h3 : n ≤ 3) (ho : g.origin.length = n) :
    plotOrigin n g = some [(originOf g.origin).1, (originOf g.origin).2.1, (originOf g.origin).2.2] := by
  unfold plotOrigin
  generalize g.origin = o at *
  match o, n, ho with
  | [], 0, _ => rfl
  | [a], 1, _ => rfl
  | [a, b], 2, _ => rfl
  | [a, b, c], 3, _ => rfl
  | _ :: _ :: _ :: _ :: _, _, l => simp only [List.length_cons] at l; omega

/-- The coarse cells. -/
theorem plotCoarse_spec {mh : MeshHierarchy} (h : ValidMesh mh) (h3 : mh.dims.length ≤ 3) :
    ∃ bases, plotCoarse mh = some bases ∧ ∀ b, b ∈ bases ↔ ∃ x, InRange mh.dims x ∧ b = vertOf x := by
  unfold plotCoarse
  have hnd : mh.ndim = mh.dims.length := rfl
  rw [hnd]
  obtain ⟨hne, hpos⟩ := h
  generalize mh.dims = ds at *
  match ds with
  | [] => exact absurd rfl hne
  | [a] =>
    refine ⟨_, rfl, fun b => ?_⟩
    simp only [List.mem_flatMap, List.mem_map, mem_intRange]
    constructor
    · rintro ⟨z, hz, y, hy, x, hx, rfl⟩
      obtain rfl : z = 0 := by omega
      obtain rfl : y = 0 := by omega
      exact ⟨[x], .cons hx .nil, rfl⟩
    · rintro ⟨x, hx, rfl⟩
      cases hx with | cons h1 h2 => cases h2; exact ⟨0, by omega, 0, by omega, _, h1, rfl⟩
  | [a, a'] =>
    refine ⟨_, rfl, fun b => ?_⟩
    simp only [List.mem_flatMap, List.mem_map, mem_intRange]
    constructor
    · rintro ⟨z, hz, y, hy, x, hx, rfl⟩
      obtain rfl : z = 0 := by omega
      exact ⟨[x, y], .cons hx (.cons hy .nil), rfl⟩
    · rintro ⟨x, hx, rfl⟩
      cases hx with | cons h1 h2 => cases h2 with | cons h2 h4 => cases h4; exact ⟨0, by omega, _, h2, _, h1, rfl⟩
  | [a, a', a''] =>
    refine ⟨_, rfl, fun b => ?_⟩
    simp only [List.mem_flatMap, List.mem_map, mem_intRange]
    constructor
    · rintro ⟨z, hz, y, hy, x, hx, rfl⟩
      exact ⟨[x, y, z], .cons hx (.cons hy (.cons hz .nil)), rfl⟩
    · rintro ⟨x, hx, rfl⟩
      cases hx with
      | cons h1 h2 => cases h2 with
        | cons h2 h4 => cases h4 with
          | cons h4 h5 => cases h5; exact ⟨_, h4, _, h2, _, h1, rfl⟩
  | _ :: _ :: _ :: _ :: _ => simp at h3

end NP
