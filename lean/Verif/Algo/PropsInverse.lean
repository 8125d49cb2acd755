import Verif.Algo.SpecInverse
import Mathlib.Tactic.FinCases
import Mathlib.Tactic.FieldSimp
import Mathlib.Tactic.LinearCombination
import Mathlib.Tactic.Ring
import Mathlib.Tactic.NormNum

/-!
# C96: inverses of small matrices and products of vectors
-/

set_option autoImplicit false

namespace NP

/-- The number divided by is the determinant. -/
theorem naiveDet3_eq {F : Type} [Field F] (M : Nat → F) : naiveDet3 M = (Spec.rowMajor 3 M).det := by
  simp [naiveDet3, Spec.rowMajor, Matrix.det_fin_three]

/-- The number divided by is the determinant. -/
theorem naiveDet4_eq {F : Type} [Field F] (M : Nat → F) : naiveDet4 M = (Spec.rowMajor 4 M).det := by
  simp [naiveDet4, Spec.rowMajor, Matrix.det_succ_row_zero, Fin.sum_univ_succ, Fin.succAbove]
  ring

/-- **C96, three by three matrices.** For every invertible matrix the output is its inverse. -/
theorem C96_inverse3 {F : Type} [Field F] [DecidableEq F] (M : Nat → F) (h : (Spec.rowMajor 3 M).det ≠ 0) :
    ∃ L, naiveInverse3 M = some L ∧ Spec.IsInverseOf 3 M L := by
  rw [← naiveDet3_eq] at h
  refine ⟨_, by unfold naiveInverse3; rw [if_neg h], rfl, ?_, ?_⟩
  · ext i j
    fin_cases i <;> fin_cases j <;>
      simp [Spec.rowMajor, Matrix.mul_apply, Fin.sum_univ_succ] <;> field_simp <;> unfold naiveDet3 <;> ring
  · ext i j
    fin_cases i <;> fin_cases j <;>
      simp [Spec.rowMajor, Matrix.mul_apply, Fin.sum_univ_succ] <;> field_simp <;> unfold naiveDet3 <;> ring

/-- A product of the matrix and the output, entry by entry: it is enough that the numerators give the
determinant on the diagonal and zero elsewhere. -/
theorem sum_over_det4 {F : Type} [Field F] {d : F} (hd : d ≠ 0) (a b c e p q r t : F) {x : F}
    (h : a * p + b * q + c * r + e * t = x * d) :
    a * (p * (1 / d)) + (b * (q * (1 / d)) + (c * (r * (1 / d)) + e * (t * (1 / d)))) = x := by
  field_simp
  linear_combination h

/-- As `sum_over_det4`, with the factors in the other order. -/
theorem sum_over_det4' {F : Type} [Field F] {d : F} (hd : d ≠ 0) (a b c e p q r t : F) {x : F}
    (h : a * p + b * q + c * r + e * t = x * d) :
    p * (1 / d) * a + (q * (1 / d) * b + (r * (1 / d) * c + t * (1 / d) * e)) = x := by
  field_simp
  linear_combination h

/-- The entries of a product of four by four matrices. -/
theorem rowMajor4_mul {F : Type} [Field F] (A B : Nat → F)
    (h : ∀ i j : Fin 4, A (4 * i) * B j + (A (4 * i + 1) * B (4 + j) + (A (4 * i + 2) * B (8 + j) +
      A (4 * i + 3) * B (12 + j))) = if i = j then 1 else 0) :
    Spec.rowMajor 4 A * Spec.rowMajor 4 B = 1 := by
  ext i j
  rw [Matrix.one_apply, ← h i j]
  simp [Spec.rowMajor, Matrix.mul_apply, Fin.sum_univ_succ]

/-- **C96, four by four matrices.** For every invertible matrix the output is its inverse. -/
theorem C96_inverse4 {F : Type} [Field F] [DecidableEq F] (M : Nat → F) (h : (Spec.rowMajor 4 M).det ≠ 0) :
    ∃ L, naiveInverse4 M = some L ∧ Spec.IsInverseOf 4 M L := by
  rw [← naiveDet4_eq] at h
  refine ⟨_, by unfold naiveInverse4; rw [if_neg h], rfl, ?_, ?_⟩
  · apply rowMajor4_mul
    intro i j
    fin_cases i <;> fin_cases j <;> (refine sum_over_det4 h _ _ _ _ _ _ _ _ ?_)
    all_goals (simp only [naiveDet4]; norm_num; try ring)
  · apply rowMajor4_mul
    intro i j
    fin_cases i <;> fin_cases j <;> (refine sum_over_det4' h _ _ _ _ _ _ _ _ ?_)
    all_goals (simp only [naiveDet4]; norm_num; try ring)

/-- **C96, singular matrices.** The functions divide by zero exactly if there is no inverse. -/
theorem C96_singular {F : Type} [Field F] [DecidableEq F] (M : Nat → F) :
    (naiveInverse3 M = none ↔ (Spec.rowMajor 3 M).det = 0) ∧
    (naiveInverse4 M = none ↔ (Spec.rowMajor 4 M).det = 0) := by
  rw [← naiveDet3_eq, ← naiveDet4_eq]
  constructor
  · unfold naiveInverse3; split <;> simp_all
  · unfold naiveInverse4; split <;> simp_all

/-- **C96, solving.** The output applied to the image of a vector gives the vector back. -/
theorem C96_solve {F : Type} [Field F] [DecidableEq F] (M L : Nat → F) (N : List F) (x : Fin 3 → F)
    (h : naiveInverse3 M = some N) (hL : ∀ k, L k = N.getD k 0) :
    (Spec.rowMajor 3 L).mulVec ((Spec.rowMajor 3 M).mulVec x) = x := by
  have hd : (Spec.rowMajor 3 M).det ≠ 0 := by
    intro h0; rw [← (C96_singular M).1] at h0; rw [h0] at h; simp at h
  obtain ⟨N', h1, -, -, h2⟩ := C96_inverse3 M hd
  rw [h] at h1
  have h3 : N = N' := by simpa using h1
  subst h3
  have h4 : L = fun k => N.getD k 0 := funext hL
  rw [h4, Matrix.mulVec_mulVec, h2, Matrix.one_mulVec]

/-- **C96, products of vectors.** `cross_product` is the cross product of Mathlib; it is perpendicular to
both arguments, and the dot products are the sums of the products of the components. -/
theorem C96_cross {F : Type} [Field F] (a b : Nat → F) :
    let c := kernelCross (a 0) (a 1) (a 2) (b 0) (b 1) (b 2)
    ![c.1, c.2.1, c.2.2] = crossProduct ![a 0, a 1, a 2] ![b 0, b 1, b 2] ∧
    kernelDot3 a (fun k => ![c.1, c.2.1, c.2.2] (Fin.ofNat 3 k)) = 0 ∧
    kernelDot3 b (fun k => ![c.1, c.2.1, c.2.2] (Fin.ofNat 3 k)) = 0 ∧
    kernelDot2 a b = ∑ k : Fin 2, a k * b k ∧ kernelDot3 a b = ∑ k : Fin 3, a k * b k := by
  refine ⟨by simp [kernelCross, cross_apply], ?_, ?_, ?_, ?_⟩
  · simp [kernelCross, kernelDot3, Fin.ofNat]; ring
  · simp [kernelCross, kernelDot3, Fin.ofNat]; ring
  · simp [kernelDot2, Fin.sum_univ_two]
  · simp [kernelDot3, Fin.sum_univ_three]

namespace Ex

/-- An invertible matrix. -/
def invM3 : Nat → ℚ := fun k => [2, 0, 1, 1, 1, 0, 0, 3, 1].getD k 0

example : naiveInverse3 invM3 = some [1/5, 3/5, -1/5, -1/5, 2/5, 1/5, 3/5, -6/5, 2/5] := by decide +kernel

example : (Spec.rowMajor 3 invM3).det ≠ 0 := by
  rw [← naiveDet3_eq]; norm_num [naiveDet3, invM3]

/-- An invertible four by four matrix. -/
def invM4 : Nat → ℚ := fun k => [1, 0, 0, 2, 0, 1, 3, 0, 0, 0, 1, 0, 1, 0, 0, 1].getD k 0

example : naiveInverse4 invM4 = some [-1, 0, 0, 2, 0, 1, -3, 0, 0, 0, 1, 0, 1, 0, 0, -1] := by decide +kernel

example : (Spec.rowMajor 4 invM4).det ≠ 0 := by
  rw [← naiveDet4_eq]; norm_num [naiveDet4, invM4]

/-- A singular matrix. -/
example : naiveInverse3 (fun k : Nat => (k : ℚ)) = none := by decide +kernel

end Ex

end NP
