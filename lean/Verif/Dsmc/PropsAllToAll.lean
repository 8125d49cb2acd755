import Verif.Dsmc.LemmasAllToAll
import Verif.Basics.Props

/-!
# C78: the loop over all pairs calls the kernel once for each pair
-/

set_option autoImplicit false

namespace NP

open Spec

/-- The calls of `apply`, for the theorems below. -/
theorem applyAll_eq (k n : Nat) : ∃ padded blocks : Nat,
    padded = blocks * (2 ^ k * 2) ∧ n ≤ padded ∧ (∀ c, n ≤ c * (2 ^ k * 2) → blocks ≤ c) ∧
    ∀ i, applyAll (2 ^ k) i n =
      some ((List.range blocks).flatMap (applyBlock (2 ^ k) i n padded blocks)) := by
  have hp := Nat.two_pow_pos k
  obtain ⟨x, h1, ⟨h2, q, h3⟩, h4⟩ := C06_next_multiple n (2 ^ k * 2) (by omega)
  have e : x / (2 ^ k * 2) = q := by rw [h3, Nat.mul_div_cancel_left _ (by omega)]
  refine ⟨x, q, by rw [h3, Nat.mul_comm], h2, fun c hc => ?_, fun i => ?_⟩
  · have := h4 (c * (2 ^ k * 2)) ⟨hc, Nat.dvd_mul_left _ _⟩
    rw [h3, Nat.mul_comm] at this
    exact Nat.le_of_mul_le_mul_right this (by omega)
  · unfold applyAll
    rw [h1]
    simp only [Option.bind_some, e]

/-- The work items of a work group, the size of which is a power of two, call the kernel exactly
once with each pair `a < b` of the `n` items, and never with anything else. -/
theorem C78_each_pair_once (k n : Nat) : ∃ trace : Nat → List (Option (Nat × Nat)),
    (∀ i < 2 ^ k, applyAll (2 ^ k) i n = some (trace i)) ∧
    ∀ a b, callCount (2 ^ k) trace a b = if a < b ∧ b < n then 1 else 0 := by
  obtain ⟨padded, blocks, h1, h2, h3, h4⟩ := applyAll_eq k n
  refine ⟨_, fun i _ => h4 i, fun a b => ?_⟩
  have hp := Nat.two_pow_pos k
  rw [callCount_flatMap, List.map_congr_left fun x hx =>
    callCount_block h1 h2 h3 (List.mem_range.1 hx)]
  refine sum_unique List.nodup_range _ _ ?_ ?_ ?_
  · rintro ⟨g1, g2⟩
    have g3 := Nat.div_mul_le_self a (2 ^ k * 2)
    have g4 := Nat.lt_div_mul_add (a := a) (b := 2 ^ k * 2) (by omega)
    refine ⟨a / (2 ^ k * 2), List.mem_range.2 ?_, g1, g2, g3, g4⟩
    exact Nat.div_lt_of_lt_mul (by rw [Nat.mul_comm]; omega)
  · rintro x - ⟨g1, g2, -⟩; exact ⟨g1, g2⟩
  · rintro x - y - ⟨-, -, g1, g2⟩ ⟨-, -, g3, g4⟩
    have key : ∀ x, x * (2 ^ k * 2) ≤ a → a < x * (2 ^ k * 2) + 2 ^ k * 2 →
        a / (2 ^ k * 2) = x := by
      intro x g1 g2
      rw [Nat.div_eq_of_lt_le g1]
      rw [Nat.add_mul, Nat.one_mul]; exact g2
    rw [← key x g1 g2, ← key y g3 g4]

/-- All work items call the synchronisation function equally often, and between two of its calls
the columns of different work items are different, and are not the row of another work item. So
a kernel may write to its column item without a race. -/
theorem C78_phases (k n : Nat) {i j : Nat} (hi : i < 2 ^ k) (hj : j < 2 ^ k) (hij : i ≠ j)
    {ti tj : List (Option (Nat × Nat))} (h1 : applyAll (2 ^ k) i n = some ti)
    (h2 : applyAll (2 ^ k) j n = some tj) :
    ti.length = tj.length ∧
    ∀ (t : Nat) (p q : Nat × Nat), ti[t]? = some (some p) → tj[t]? = some (some q) →
      p.2 ≠ q.2 ∧ p.1 ≠ q.2 ∧ p.2 ≠ q.1 := by
  obtain ⟨padded, blocks, -, -, -, h4⟩ := applyAll_eq k n
  rw [h4] at h1 h2
  obtain rfl := Option.some.inj h1
  obtain rfl := Option.some.inj h2
  have h := apart_flatMap (l := List.range blocks) fun x _ =>
    apart_block (n := n) (padded := padded) (blocks := blocks) (blockx := x) hi hj hij
  refine ⟨h.length_eq, ?_⟩
  generalize (List.range blocks).flatMap (applyBlock (2 ^ k) i n padded blocks) = x at h
  generalize (List.range blocks).flatMap (applyBlock (2 ^ k) j n padded blocks) = y at h
  induction h with
  | nil => intro t p q hp; simp at hp
  | cons h _ ih =>
    intro t p q hp hq
    cases t with
    | zero =>
      simp only [List.getElem?_cons_zero, Option.some.injEq] at hp hq
      exact h p q hp hq
    | succ t => exact ih t p q (by simpa using hp) (by simpa using hq)

/-- For other sizes of work groups the property does not hold of the code: with three work items
and six items the kernel is never called for the pair 0 and 2, and is called twice for the pair 2
and 3. The code does not check the size. -/
theorem C78_size_three : ∃ trace : Nat → List (Option (Nat × Nat)),
    (∀ i < 3, applyAll 3 i 6 = some (trace i)) ∧
    callCount 3 trace 0 2 = 0 ∧ callCount 3 trace 2 3 = 2 := by
  refine ⟨fun i => (applyAll 3 i 6).getD [], ?_, ?_, ?_⟩ <;> decide

/-! ## Examples -/

namespace Ex

/-- Two work items and five items: fourteen phases. -/
example : applyAll 2 0 5 = some [some (0, 2), some (1, 3), some (0, 1), some (0, 4), none, none,
    none, some (2, 4), none, none, none, none, none, none] := by decide

example : applyAll 2 1 5 = some [some (0, 3), some (1, 2), some (2, 3), none, some (1, 4), none,
    none, none, some (3, 4), none, none, none, none, none] := by decide

/-- The first phase with the two work items. -/
example : ∃ ti tj : List (Option (Nat × Nat)),
    applyAll (2 ^ 1) 0 5 = some ti ∧ applyAll (2 ^ 1) 1 5 = some tj ∧
    ti[0]? = some (some (0, 2)) ∧ tj[0]? = some (some (0, 3)) := by
  refine ⟨(applyAll (2 ^ 1) 0 5).getD [], (applyAll (2 ^ 1) 1 5).getD [], ?_⟩
  decide

end Ex

end NP
