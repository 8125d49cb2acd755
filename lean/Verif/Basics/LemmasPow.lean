import Verif.Basics.Lemmas

/-! Helper lemmas: powers of two. -/

set_option autoImplicit false

namespace NP

theorem and_pred_even {m : Nat} (hm : 0 < m) :
    (2 * m) &&& (2 * m - 1) = 2 * (m &&& (m - 1)) := by
  have h1 : ((2 * m) &&& (2 * m - 1)) / 2 = m &&& (m - 1) := by
    rw [Nat.and_div_two]
    congr 1 <;> omega
  have h2 : ((2 * m) &&& (2 * m - 1)) % 2 = 0 := by
    have : ((2 * m) &&& (2 * m - 1)).testBit 0 = false := by
      rw [Nat.testBit_and, Nat.testBit_zero]
      simp
    rw [Nat.testBit_zero, decide_eq_false_iff_not] at this
    omega
  omega

theorem and_pred_odd (m : Nat) : (2 * m + 1) &&& (2 * m + 1 - 1) = 2 * m := by
  have h1 : ((2 * m + 1) &&& (2 * m + 1 - 1)) / 2 = m := by
    rw [Nat.and_div_two]
    have e1 : (2 * m + 1) / 2 = m := by omega
    have e2 : (2 * m + 1 - 1) / 2 = m := by omega
    rw [e1, e2, Nat.and_self]
  have h2 : ((2 * m + 1) &&& (2 * m + 1 - 1)) % 2 = 0 := by
    have : ((2 * m + 1) &&& (2 * m + 1 - 1)).testBit 0 = false := by
      rw [Nat.testBit_and, Nat.testBit_zero, Nat.testBit_zero]
      simp
    rw [Nat.testBit_zero, decide_eq_false_iff_not] at this
    omega
  omega

theorem isPowerOfTwo_iff (n : Nat) : isPowerOfTwo n = true ↔ Spec.IsPow2 n := by
  induction n using Nat.strongRecOn with
  | _ n ih =>
    unfold isPowerOfTwo Spec.IsPow2
    by_cases h0 : n = 0
    · subst h0
      simp only [gt_iff_lt, Nat.lt_irrefl, if_false, Bool.false_eq_true, false_iff, not_exists]
      intro k hk
      have := Nat.two_pow_pos k
      omega
    rw [if_pos (by omega)]
    rcases Nat.mod_two_eq_zero_or_one n with h | h
    · obtain ⟨m, rfl⟩ : ∃ m, n = 2 * m := ⟨n / 2, by omega⟩
      rw [and_pred_even (by omega)]
      have := ih m (by omega)
      unfold isPowerOfTwo Spec.IsPow2 at this
      rw [if_pos (by omega)] at this
      simp only [beq_iff_eq, Nat.mul_eq_zero, OfNat.ofNat_ne_zero, false_or] at this ⊢
      rw [this]
      constructor
      · rintro ⟨k, rfl⟩; exact ⟨k + 1, by rw [Nat.pow_succ]; omega⟩
      · rintro ⟨k, hk⟩
        cases k with
        | zero => simp at hk; omega
        | succ k => exact ⟨k, by rw [Nat.pow_succ] at hk; omega⟩
    · obtain ⟨m, rfl⟩ : ∃ m, n = 2 * m + 1 := ⟨n / 2, by omega⟩
      rw [and_pred_odd]
      simp only [beq_iff_eq]
      constructor
      · intro hm; exact ⟨0, by omega⟩
      · rintro ⟨k, hk⟩
        cases k with
        | zero => simp at hk; omega
        | succ k => rw [Nat.pow_succ] at hk; omega

theorem pow_log2_le {N : Nat} (h : 0 < N) : 2 ^ N.log2 ≤ N := Nat.log2_self_le (by omega)

theorem lt_pow_log2 (N : Nat) : N < 2 ^ (N.log2 + 1) := Nat.lt_log2_self

theorem log2_lt {N b : Nat} (h : 0 < N) (hb : N < 2 ^ b) : N.log2 < b := by
  rw [Nat.log2_lt (by omega)]; exact hb

end NP
