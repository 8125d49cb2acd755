import Verif.Basics.Model
import Verif.Basics.Spec
import Verif.Common.KernelLemmas
import Mathlib.Tactic.Ring
import Mathlib.Data.List.Basic
import Mathlib.Algebra.BigOperators.Group.List.Basic

/-! Helper lemmas for the basics area. -/

set_option autoImplicit false

namespace NP

/-! ## decomposition -/

/-- Start of unit `i`, in closed form. -/
def dstart (n N i : Nat) : Nat := i * (N / n) + min i (N % n)

theorem getDecomp1d_eq {n N i : Nat} (hn : 0 < n) :
    getDecomp1d n N i = some (dstart n N i, dstart n N (i + 1)) := by
  unfold getDecomp1d dstart
  rw [if_neg (by omega)]
  generalize N / n = p
  generalize N % n = q
  simp only [Option.some.injEq, Prod.mk.injEq]
  rcases Nat.lt_trichotomy i q with h | h | h
  · rw [Nat.min_eq_left (by omega), Nat.min_eq_left (by omega), if_pos h, if_neg (by omega)]
    constructor <;> ring
  · subst h
    simp
    constructor <;> ring
  · obtain ⟨d, rfl⟩ : ∃ d, i = q + d := ⟨i - q, by omega⟩
    rw [Nat.min_eq_right (by omega), Nat.min_eq_right (by omega)]
    simp only [show ¬ (q + d < q) by omega, if_false, show q + d > q by omega, if_true,
      Nat.add_sub_cancel_left]
    constructor <;> ring

theorem dstart_zero (n N : Nat) : dstart n N 0 = 0 := by simp [dstart]

theorem dstart_top {n : Nat} (N : Nat) (hn : 0 < n) : dstart n N n = N := by
  unfold dstart
  rw [Nat.min_eq_right (Nat.le_of_lt (Nat.mod_lt _ hn))]
  exact Nat.div_add_mod N n

theorem dstart_succ (n N i : Nat) :
    dstart n N (i + 1) = dstart n N i + N / n + (if i < N % n then 1 else 0) := by
  unfold dstart
  generalize N / n = p
  generalize N % n = q
  have : (i + 1) * p = i * p + p := by ring
  split <;> omega

theorem dstart_mono {n N i j : Nat} (h : i ≤ j) : dstart n N i ≤ dstart n N j := by
  induction h with
  | refl => exact Nat.le_refl _
  | step _ ih =>
    rw [dstart_succ]
    exact Nat.le_trans ih (Nat.le_trans (Nat.le_add_right _ _) (Nat.le_add_right _ _))

theorem dstart_lt_succ {n N i : Nat} (hn : 0 < n) (hN : n ≤ N) :
    dstart n N i < dstart n N (i + 1) := by
  rw [dstart_succ]
  have : 0 < N / n := Nat.div_pos hN hn
  omega

theorem dstart_unique {n N i j w : Nat} (hi1 : dstart n N i ≤ w) (hi2 : w < dstart n N (i + 1))
    (hj1 : dstart n N j ≤ w) (hj2 : w < dstart n N (j + 1)) : i = j := by
  rcases Nat.lt_trichotomy i j with h | h | h
  · have := dstart_mono (n := n) (N := N) (show i + 1 ≤ j by omega); omega
  · exact h
  · have := dstart_mono (n := n) (N := N) (show j + 1 ≤ i by omega); omega

theorem dstart_exists {n N w m : Nat} (h : w < dstart n N m) :
    ∃ i, i < m ∧ dstart n N i ≤ w ∧ w < dstart n N (i + 1) := by
  induction m with
  | zero => simp [dstart_zero] at h
  | succ m ih =>
    by_cases hw : w < dstart n N m
    · obtain ⟨i, h1, h2⟩ := ih hw
      exact ⟨i, by omega, h2⟩
    · exact ⟨m, by omega, by omega, h⟩

theorem getDecomp1dInverse_spec {n N w : Nat} (hn : 0 < n) (hw : w < N) :
    ∃ i, getDecomp1dInverse n N w = some i ∧ i < n ∧
      dstart n N i ≤ w ∧ w < dstart n N (i + 1) := by
  have key : ∃ i, getDecomp1dInverse n N w = some i ∧
      dstart n N i ≤ w ∧ w < dstart n N (i + 1) := by
    unfold getDecomp1dInverse dstart
    rw [if_neg (by omega)]
    have hNn : N = n * (N / n) + N % n := (Nat.div_add_mod N n).symm
    have hq : N % n < n := Nat.mod_lt _ hn
    revert hNn hq
    generalize N / n = p
    generalize N % n = q
    intro hNn hq
    by_cases hc : w < (p + 1) * q
    · have h1 : w / (p + 1) < q := by
        apply Nat.div_lt_of_lt_mul; exact hc
      refine ⟨w / (p + 1), by simp [hc], ?_, ?_⟩
      · rw [Nat.min_eq_left (by omega)]
        have := Nat.div_mul_le_self w (p + 1)
        calc _ = w / (p + 1) * (p + 1) := by ring
          _ ≤ w := this
      · rw [Nat.min_eq_left (by omega)]
        have := Nat.lt_div_mul_add (a := w) (b := p + 1) (by omega)
        calc w < w / (p + 1) * (p + 1) + (p + 1) := this
          _ = _ := by ring
    · have hp : p ≠ 0 := by
        rintro rfl; simp at hNn hc; omega
      refine ⟨q + (w - (p + 1) * q) / p, by simp [hc, hp], ?_, ?_⟩
      · rw [Nat.min_eq_right (by generalize (w - (p + 1) * q) / p = t; omega)]
        have := Nat.div_mul_le_self (w - (p + 1) * q) p
        have e : (q + (w - (p + 1) * q) / p) * p + q
            = (p + 1) * q + (w - (p + 1) * q) / p * p := by ring
        rw [e]; omega
      · rw [Nat.min_eq_right (by generalize (w - (p + 1) * q) / p = t; omega)]
        have := Nat.lt_div_mul_add (a := w - (p + 1) * q) (b := p) (by omega)
        have e : (q + (w - (p + 1) * q) / p + 1) * p + q
            = (p + 1) * q + ((w - (p + 1) * q) / p * p + p) := by ring
        rw [e]; omega
  obtain ⟨i, h1, h2, h3⟩ := key
  refine ⟨i, h1, ?_, h2, h3⟩
  apply Nat.lt_of_not_le; intro hni
  have := dstart_mono (n := n) (N := N) hni
  rw [dstart_top N hn] at this; omega

/-! ## rounding -/

theorem divRoundUp_eq {N M : Nat} (hM : 0 < M) : divRoundUp N M = some ((N + (M - 1)) / M) := by
  unfold divRoundUp
  rw [if_neg (by omega)]
  simp only [Option.some.injEq]
  have h1 : M * (N / M) + N % M = N := Nat.div_add_mod N M
  have h2 : N % M < M := Nat.mod_lt _ hM
  have hc : N / M * M = M * (N / M) := Nat.mul_comm _ _
  symm
  split
  · rw [Nat.div_eq_iff (by omega)]
    have : (N / M + 1) * M = N / M * M + M := by ring
    omega
  · rw [Nat.div_eq_iff (by omega)]
    omega

/-! ## scans -/

section Scan

variable {α : Type} [AddCommMonoid α]

@[simp] theorem length_exclusiveFrom (acc : α) (l : List α) :
    (exclusiveFrom acc l).length = l.length := by
  induction l generalizing acc with
  | nil => rfl
  | cons x xs ih => simp [exclusiveFrom, ih]

@[simp] theorem length_inclusiveFrom (acc : α) (l : List α) :
    (inclusiveFrom acc l).length = l.length := by
  induction l generalizing acc with
  | nil => rfl
  | cons x xs ih => simp [inclusiveFrom, ih]

theorem getElem?_exclusiveFrom (acc : α) (l : List α) (i : Nat) (h : i < l.length) :
    (exclusiveFrom acc l)[i]? = some (acc + (l.take i).sum) := by
  induction l generalizing acc i with
  | nil => simp at h
  | cons x xs ih =>
    cases i with
    | zero => simp [exclusiveFrom]
    | succ i =>
      simp only [exclusiveFrom, List.getElem?_cons_succ, List.take_succ_cons, List.sum_cons]
      rw [ih _ _ (by simpa using h)]
      rw [add_assoc]

theorem getElem?_inclusiveFrom (acc : α) (l : List α) (i : Nat) (h : i < l.length) :
    (inclusiveFrom acc l)[i]? = some (acc + (l.take (i + 1)).sum) := by
  induction l generalizing acc i with
  | nil => simp at h
  | cons x xs ih =>
    cases i with
    | zero => simp [inclusiveFrom]
    | succ i =>
      simp only [inclusiveFrom, List.getElem?_cons_succ, List.take_succ_cons, List.sum_cons]
      rw [ih _ _ (by simpa using h)]
      rw [add_assoc]

theorem syclExclusiveScan_spec {src dst : List α} {first last out : Nat}
    (h1 : first ≤ last) (h2 : last ≤ src.length) (h3 : out + (last - first) ≤ dst.length) :
    ∃ dst', syclExclusiveScan src first last dst out = some dst' ∧
      dst'.length = dst.length ∧
      (∀ i, i < last - first → dst'[out + i]? = some ((src.drop first).take i).sum) ∧
      (∀ k, ¬ (out ≤ k ∧ k < out + (last - first)) → dst'[k]? = dst[k]?) := by
  unfold syclExclusiveScan
  rw [slice_eq_some h1 h2]
  simp only [Option.bind_some]
  have hlen : (exclusiveFrom 0 ((src.drop first).take (last - first))).length = last - first := by
    simp; omega
  have h3' : out + (exclusiveFrom 0 ((src.drop first).take (last - first))).length
      ≤ dst.length := by rw [hlen]; exact h3
  have heq := stRange_eq_some h3'
  refine ⟨_, heq, (length_of_stRange heq).1, ?_, ?_⟩
  · intro i hi
    rw [getElem?_of_stRange heq, hlen, if_pos (by omega), Nat.add_sub_cancel_left,
      getElem?_exclusiveFrom _ _ _ (by simp; omega), zero_add, List.take_take,
      Nat.min_eq_left (by omega)]
  · intro k hk
    rw [getElem?_of_stRange heq, hlen, if_neg hk]

theorem syclInclusiveScan_spec {src dst : List α} {first last out : Nat}
    (h1 : first ≤ last) (h2 : last ≤ src.length) (h3 : out + (last - first) ≤ dst.length) :
    ∃ dst', syclInclusiveScan src first last dst out = some dst' ∧
      dst'.length = dst.length ∧
      (∀ i, i < last - first → dst'[out + i]? = some ((src.drop first).take (i + 1)).sum) ∧
      (∀ k, ¬ (out ≤ k ∧ k < out + (last - first)) → dst'[k]? = dst[k]?) := by
  unfold syclInclusiveScan
  rw [slice_eq_some h1 h2]
  simp only [Option.bind_some]
  have hlen : (inclusiveFrom 0 ((src.drop first).take (last - first))).length = last - first := by
    simp; omega
  have h3' : out + (inclusiveFrom 0 ((src.drop first).take (last - first))).length
      ≤ dst.length := by rw [hlen]; exact h3
  have heq := stRange_eq_some h3'
  refine ⟨_, heq, (length_of_stRange heq).1, ?_, ?_⟩
  · intro i hi
    rw [getElem?_of_stRange heq, hlen, if_pos (by omega), Nat.add_sub_cancel_left,
      getElem?_inclusiveFrom _ _ _ (by simp; omega), zero_add, List.take_take,
      Nat.min_eq_left (by omega)]
  · intro k hk
    rw [getElem?_of_stRange heq, hlen, if_neg hk]

/-- exclusive scan followed by storing zero in its first output element -/
theorem scanThenZero_spec {src dst : List α} {first last : Nat} (out : Nat)
    (h1 : first < last) (h2 : last ≤ src.length) (h3 : out + (last - first) ≤ dst.length) :
    ∃ dst', ((syclExclusiveScan src first last dst out).bind fun d => st d out 0) = some dst' ∧
      dst'.length = dst.length ∧
      (∀ i, i < last - first → dst'[out + i]? = some ((src.drop first).take i).sum) ∧
      (∀ k, ¬ (out ≤ k ∧ k < out + (last - first)) → dst'[k]? = dst[k]?) := by
  obtain ⟨d, e, hl, ha, hb⟩ := syclExclusiveScan_spec (src := src) (dst := dst)
    (out := out) (Nat.le_of_lt h1) h2 h3
  rw [e]
  refine ⟨d.set out 0, ?_, by simp [hl], ?_, ?_⟩
  · simp only [Option.bind_some]
    exact st_eq_some (by omega)
  · intro i hi
    by_cases h0 : i = 0
    · subst h0; rw [Nat.add_zero, List.getElem?_set_self (by omega)]; simp
    · rw [List.getElem?_set_ne (by omega), ha i hi]
  · intro k hk
    rw [List.getElem?_set_ne (by omega), hb k hk]

theorem sum_take_add {l : List α} {a k : Nat} (h : a ≤ k) :
    (l.take a).sum + ((l.drop a).take (k - a)).sum = (l.take k).sum := by
  rw [← List.sum_append]
  congr 1
  obtain ⟨d, rfl⟩ : ∃ d, k = a + d := ⟨k - a, by omega⟩
  rw [Nat.add_sub_cancel_left, List.take_add]

end Scan

end NP
