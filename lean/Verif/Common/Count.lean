import Mathlib.Data.List.Basic

/-! Counting the numbers below a bound that satisfy a predicate. -/

set_option autoImplicit false

namespace NP

/-- Number of `i < n` with `p i`. -/
def cnt (p : Nat → Bool) (n : Nat) : Nat := ((List.range n).filter p).length

@[simp] theorem cnt_zero (p : Nat → Bool) : cnt p 0 = 0 := rfl

theorem cnt_succ (p : Nat → Bool) (n : Nat) :
    cnt p (n + 1) = cnt p n + if p n then 1 else 0 := by
  unfold cnt
  rw [List.range_succ, List.filter_append, List.length_append]
  by_cases h : p n <;> simp [h]

theorem cnt_mono {p : Nat → Bool} {a b : Nat} (h : a ≤ b) : cnt p a ≤ cnt p b := by
  induction b with
  | zero => rw [Nat.le_zero.1 h]; exact Nat.le_refl _
  | succ b ih =>
    rcases Nat.lt_or_ge a (b + 1) with h1 | h1
    · rw [cnt_succ]; have := ih (by omega); omega
    · rw [Nat.le_antisymm h h1]; exact Nat.le_refl _

theorem cnt_le (p : Nat → Bool) (n : Nat) : cnt p n ≤ n := by
  induction n with
  | zero => simp
  | succ n ih => rw [cnt_succ]; split <;> omega

theorem cnt_diff_le {p : Nat → Bool} {a b : Nat} (h : a ≤ b) : cnt p b ≤ cnt p a + (b - a) := by
  obtain ⟨n, rfl⟩ : ∃ n, b = a + n := ⟨b - a, by omega⟩
  clear h
  induction n with
  | zero => simp
  | succ n ih => rw [← Nat.add_assoc, cnt_succ]; split <;> omega

theorem cnt_lt {p : Nat → Bool} {a b : Nat} (h : a < b) (hp : p a = true) :
    cnt p a < cnt p b := by
  have h1 : cnt p (a + 1) = cnt p a + 1 := by rw [cnt_succ, if_pos hp]
  have := cnt_mono (p := p) (show a + 1 ≤ b from h)
  omega

theorem cnt_inj {p : Nat → Bool} {a b : Nat} (ha : p a = true) (hb : p b = true)
    (h : cnt p a = cnt p b) : a = b := by
  rcases Nat.lt_trichotomy a b with h1 | h1 | h1
  · have := cnt_lt h1 ha; omega
  · exact h1
  · have := cnt_lt h1 hb; omega

theorem cnt_surj {p : Nat → Bool} {n r : Nat} (h : r < cnt p n) :
    ∃ a, a < n ∧ p a = true ∧ cnt p a = r := by
  induction n with
  | zero => simp at h
  | succ n ih =>
    rw [cnt_succ] at h
    by_cases h1 : r < cnt p n
    · obtain ⟨a, ha, hb⟩ := ih h1
      exact ⟨a, by omega, hb⟩
    · by_cases hp : p n
      · rw [if_pos hp] at h
        exact ⟨n, by omega, hp, by omega⟩
      · rw [if_neg hp] at h; omega

theorem cnt_not (p : Nat → Bool) (n : Nat) : cnt (fun i => !p i) n = n - cnt p n := by
  induction n with
  | zero => rfl
  | succ n ih =>
    have := cnt_le p n
    rw [cnt_succ, cnt_succ, ih]
    by_cases h : p n
    · simp [h]
    · simp [h]; omega

theorem cnt_congr {p q : Nat → Bool} {n : Nat} (h : ∀ i, i < n → p i = q i) :
    cnt p n = cnt q n := by
  unfold cnt
  congr 1
  apply List.filter_congr
  intro i hi
  exact h i (List.mem_range.1 hi)

/-- Sum of the indicator. -/
theorem sum_indicator (p : Nat → Bool) (n : Nat) :
    ((List.range n).map fun i => if p i then 1 else 0).sum = cnt p n := by
  induction n with
  | zero => rfl
  | succ n ih => rw [List.range_succ, List.map_append, List.sum_append, ih, cnt_succ]; simp

end NP
