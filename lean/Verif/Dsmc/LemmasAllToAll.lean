import Verif.Dsmc.SpecAllToAll
import Verif.Common.KernelLemmas
import Mathlib.Data.Nat.ModEq
import Mathlib.Algebra.Order.Ring.Nat
import Mathlib.Data.List.Flatten
import Mathlib.Data.List.Forall2

/-! Sums of calls over work items, for the loop over all pairs. -/

set_option autoImplicit false

namespace NP

open Spec

/-- What the kernel is called with in one phase. -/
def cellCall (masked : Bool) (n row col : Nat) : Option (Nat × Nat) :=
  if masked then if row < n ∧ col < n then some (row, col) else none else some (row, col)

theorem cellCall_eq_some {masked : Bool} {n row col a b : Nat} :
    cellCall masked n row col = some (a, b) ↔
      row = a ∧ col = b ∧ (masked = true → a < n ∧ b < n) := by
  unfold cellCall
  cases masked <;> simp
  constructor
  · rintro ⟨⟨h1, h2⟩, rfl, rfl⟩; exact ⟨rfl, rfl, h1, h2⟩
  · rintro ⟨rfl, rfl, h1, h2⟩; exact ⟨⟨h1, h2⟩, rfl, rfl⟩

theorem innerRows_eq {m col0 n : Nat} {masked : Bool} :
    ∀ (rows row index : Nat), index < 2 ^ m →
      innerRows (2 ^ m) col0 n masked rows row index =
        (List.range rows).map fun r => cellCall masked n (row + r) ((index + r) % 2 ^ m + col0) := by
  intro rows
  induction rows with
  | zero => intro row index _; rfl
  | succ rows ih =>
    intro row index hi
    rw [List.range_succ_eq_map, List.map_cons, List.map_map]
    simp only [innerRows]
    rw [Nat.and_two_pow_sub_one_eq_mod, ih _ _ (Nat.mod_lt _ (Nat.two_pow_pos m))]
    congr 1
    · simp only [Nat.add_zero, Nat.mod_eq_of_lt hi]; rfl
    · refine List.map_congr_left fun r _ => ?_
      simp only [Function.comp_apply, Nat.succ_eq_add_one, Nat.mod_add_mod]
      congr 1
      · omega
      · congr 2; omega

theorem innerBlock_eq {m item row0 col0 n : Nat} {masked : Bool} (hi : item < 2 ^ m) :
    innerBlock item (2 ^ m) row0 col0 n masked =
      (List.range (2 ^ m)).map fun r =>
        cellCall masked n (row0 + r) ((item + r) % 2 ^ m + col0) := innerRows_eq _ _ _ hi

theorem sum_map_zero {ι : Type} {l : List ι} {f : ι → Nat} (h : ∀ i ∈ l, f i = 0) :
    (l.map f).sum = 0 := by
  induction l with
  | nil => rfl
  | cons x l ih =>
    rw [List.map_cons, List.sum_cons, h x List.mem_cons_self,
      ih fun i hi => h i (List.mem_cons_of_mem _ hi)]

theorem sum_map_plus {ι : Type} (l : List ι) (f g : ι → Nat) :
    (l.map fun i => f i + g i).sum = (l.map f).sum + (l.map g).sum := by
  induction l with
  | nil => rfl
  | cons x l ih => simp only [List.map_cons, List.sum_cons, ih]; omega

theorem countP_eq_sum {ι : Type} (p : ι → Bool) (l : List ι) :
    l.countP p = (l.map fun i => if p i then 1 else 0).sum := by
  induction l with
  | nil => rfl
  | cons x l ih => rw [List.countP_cons, List.map_cons, List.sum_cons, ih]; omega

theorem sum_unique {ι : Type} {l : List ι} (hl : l.Nodup) (P : ι → Prop) [DecidablePred P]
    (Q : Prop) [Decidable Q] (h1 : Q → ∃ i ∈ l, P i) (h2 : ∀ i ∈ l, P i → Q)
    (h3 : ∀ i ∈ l, ∀ j ∈ l, P i → P j → i = j) :
    (l.map fun i => if P i then 1 else 0).sum = if Q then 1 else 0 := by
  induction l with
  | nil =>
    rw [if_neg]
    · rfl
    · intro hq; obtain ⟨i, hi, -⟩ := h1 hq; cases hi
  | cons x l ih =>
    rw [List.nodup_cons] at hl
    rw [List.map_cons, List.sum_cons]
    by_cases hx : P x
    · rw [if_pos hx, if_pos (h2 x List.mem_cons_self hx)]
      have : (l.map fun i => if P i then 1 else 0).sum = 0 := by
        refine sum_map_zero fun i hi => ?_
        rw [if_neg]
        intro hp
        exact hl.1 (h3 i (List.mem_cons_of_mem _ hi) x List.mem_cons_self hp hx ▸ hi)
      rw [this]
    · rw [if_neg hx, Nat.zero_add]
      refine ih hl.2 (fun hq => ?_) (fun i hi => h2 i (List.mem_cons_of_mem _ hi))
        fun i hi j hj => h3 i (List.mem_cons_of_mem _ hi) j (List.mem_cons_of_mem _ hj)
      obtain ⟨i, hi, hp⟩ := h1 hq
      rcases List.mem_cons.1 hi with rfl | hi
      · exact absurd hp hx
      · exact ⟨i, hi, hp⟩

theorem count_innerBlock {m item row0 col0 n a b : Nat} {masked : Bool} (hi : item < 2 ^ m) :
    (innerBlock item (2 ^ m) row0 col0 n masked).count (some (a, b)) =
      if row0 ≤ a ∧ a < row0 + 2 ^ m ∧ (item + (a - row0)) % 2 ^ m + col0 = b ∧
        (masked = true → a < n ∧ b < n) then 1 else 0 := by
  rw [innerBlock_eq hi, List.count_eq_countP, List.countP_map, countP_eq_sum]
  have := sum_unique (List.nodup_range (n := 2 ^ m))
    (fun r => cellCall masked n (row0 + r) ((item + r) % 2 ^ m + col0) = some (a, b))
    (row0 ≤ a ∧ a < row0 + 2 ^ m ∧ (item + (a - row0)) % 2 ^ m + col0 = b ∧
        (masked = true → a < n ∧ b < n)) ?_ ?_ ?_
  · rw [← this]
    congr 1
    refine List.map_congr_left fun r _ => ?_
    simp [beq_iff_eq]
  · rintro ⟨h1, h2, h3, h4⟩
    exact ⟨a - row0, List.mem_range.2 (by omega), cellCall_eq_some.2 ⟨by omega, h3, h4⟩⟩
  · intro r hr h
    obtain ⟨h1, h2, h3⟩ := cellCall_eq_some.1 h
    have hr := List.mem_range.1 hr
    have e : a - row0 = r := by omega
    rw [e]
    exact ⟨by omega, by omega, h2, h3⟩
  · intro i _ j _ hi hj
    have := (cellCall_eq_some.1 hi).1
    have := (cellCall_eq_some.1 hj).1
    omega

/-! ## Sums over work items -/

theorem callCount_append (wg : Nat) (f g : Nat → List (Option (Nat × Nat))) (a b : Nat) :
    callCount wg (fun i => f i ++ g i) a b = callCount wg f a b + callCount wg g a b := by
  unfold callCount
  simp only [List.count_append]
  exact sum_map_plus _ _ _

theorem callCount_nil (wg a b : Nat) : callCount wg (fun _ => []) a b = 0 := by
  simp [callCount]

theorem callCount_flatMap {ι : Type} (wg : Nat) (l : List ι)
    (f : Nat → ι → List (Option (Nat × Nat))) (a b : Nat) :
    callCount wg (fun i => l.flatMap (f i)) a b =
      (l.map fun c => callCount wg (fun i => f i c) a b).sum := by
  induction l with
  | nil => exact callCount_nil _ _ _
  | cons c l ih =>
    simp only [List.flatMap_cons, List.map_cons, List.sum_cons]
    rw [callCount_append, ih]

theorem callCount_congr {wg : Nat} {f g : Nat → List (Option (Nat × Nat))} {a b : Nat}
    (h : ∀ i < wg, f i = g i) : callCount wg f a b = callCount wg g a b := by
  unfold callCount
  congr 1
  refine List.map_congr_left fun i hi => ?_
  rw [h i (List.mem_range.1 hi)]

theorem add_mod_cancel {s i j r : Nat} (hi : i < s) (hj : j < s)
    (h : (i + r) % s = (j + r) % s) : i = j := by
  have h' : i ≡ j [MOD s] := Nat.ModEq.add_right_cancel' r h
  exact Nat.ModEq.eq_of_lt_of_lt h' hi hj

theorem add_mod_solve {s r t : Nat} (hr : r < s) (ht : t < s) :
    ((t + s - r) % s + r) % s = t := by
  rw [Nat.mod_add_mod, Nat.sub_add_cancel (by omega), Nat.add_mod_right, Nat.mod_eq_of_lt ht]

/-- The calls in a block away from the diagonal, which all work items share. -/
theorem callCount_inner {k row0 col0 n a b : Nat} {masked : Bool} :
    callCount (2 ^ k) (fun i => innerBlock i (2 ^ k) row0 col0 n masked) a b =
      if (row0 ≤ a ∧ a < row0 + 2 ^ k) ∧ (col0 ≤ b ∧ b < col0 + 2 ^ k) ∧
        (masked = true → a < n ∧ b < n) then 1 else 0 := by
  have hp := Nat.two_pow_pos k
  unfold callCount
  rw [List.map_congr_left fun i hi => count_innerBlock (List.mem_range.1 hi)]
  refine sum_unique List.nodup_range _ _ ?_ ?_ ?_
  · rintro ⟨⟨h1, h2⟩, ⟨h3, h4⟩, h5⟩
    refine ⟨((b - col0) + 2 ^ k - (a - row0)) % 2 ^ k, List.mem_range.2 (Nat.mod_lt _ hp),
      h1, h2, ?_, h5⟩
    rw [add_mod_solve (by omega) (by omega)]
    omega
  · rintro i - ⟨h1, h2, h3, h4⟩
    have := Nat.mod_lt (i + (a - row0)) hp
    exact ⟨⟨h1, h2⟩, ⟨by omega, by omega⟩, h4⟩
  · rintro i hi j hj ⟨-, -, h3, -⟩ ⟨-, -, h3', -⟩
    exact add_mod_cancel (List.mem_range.1 hi) (List.mem_range.1 hj) (r := a - row0) (by omega)

theorem halves {s x y : Nat} (hs : 0 < s) :
    (x / (2 * s) = y / (2 * s) ∧ x / s < y / s) ↔
      ∃ B, 2 * B * s ≤ x ∧ x < 2 * B * s + s ∧ s + 2 * B * s ≤ y ∧ y < s + 2 * B * s + s := by
  rw [Nat.mul_comm 2 s, ← Nat.div_div_eq_div_mul, ← Nat.div_div_eq_div_mul]
  constructor
  · rintro ⟨h1, h2⟩
    refine ⟨x / s / 2, ?_⟩
    have e1 : x / s = 2 * (x / s / 2) := by omega
    have e2 : y / s = 2 * (x / s / 2) + 1 := by omega
    generalize x / s / 2 = B at e1 e2
    have h3 := Nat.div_mul_le_self x s
    have h4 := Nat.lt_div_mul_add (a := x) hs
    have h5 := Nat.div_mul_le_self y s
    have h6 := Nat.lt_div_mul_add (a := y) hs
    rw [e1] at h3 h4
    rw [e2, Nat.add_mul, Nat.one_mul] at h5 h6
    omega
  · rintro ⟨B, h1, h2, h3, h4⟩
    have e1 : x / s = 2 * B := by
      rw [Nat.div_eq_of_lt_le]
      · exact h1
      · rw [Nat.add_mul, Nat.one_mul]; exact h2
    have e2 : y / s = 2 * B + 1 := by
      rw [Nat.div_eq_of_lt_le]
      · rw [Nat.add_mul, Nat.one_mul]; omega
      · rw [Nat.add_mul, Nat.add_mul, Nat.one_mul]; omega
    rw [e1, e2]
    omega

/-- One size of `apply_diagonal`. -/
def diagLevel (idx n offset : Nat) (masked : Bool) (size : Nat) : List (Option (Nat × Nat)) :=
  innerBlock (idx % size) size (size + idx / size * 2 * size - size + offset)
    (size + idx / size * 2 * size + offset) n masked

theorem callCount_level {k m n offset a b : Nat} {masked : Bool} (hm : m ≤ k) :
    callCount (2 ^ k) (fun i => diagLevel i n offset masked (2 ^ m)) a b =
      if (offset ≤ a ∧ offset ≤ b ∧ (masked = true → a < n ∧ b < n)) ∧ a - offset < 2 * 2 ^ k ∧
        (a - offset) / (2 * 2 ^ m) = (b - offset) / (2 * 2 ^ m) ∧
        (a - offset) / 2 ^ m < (b - offset) / 2 ^ m then 1 else 0 := by
  have hp := Nat.two_pow_pos m
  obtain ⟨v, hv⟩ : ∃ v, 2 ^ k = v * 2 ^ m :=
    ⟨2 ^ (k - m), by rw [← Nat.pow_add, Nat.sub_add_cancel hm]⟩
  unfold callCount diagLevel
  rw [List.map_congr_left fun i hi => count_innerBlock (Nat.mod_lt i hp)]
  generalize hs : 2 ^ m = s at hp hv ⊢
  rw [hv]
  refine sum_unique List.nodup_range _ _ ?_ ?_ ?_
  · rintro ⟨⟨h1, h2, h3⟩, h4, h5⟩
    obtain ⟨B, b1, b2, b3, b4⟩ := (halves hp).1 h5
    have hB : B < v := by
      by_contra hc
      have h6 : 2 * v * s ≤ 2 * B * s := Nat.mul_le_mul_right _ (by omega)
      have h7 : 2 * (v * s) = 2 * v * s := (Nat.mul_assoc 2 v s).symm
      omega
    let t := ((b - offset - s - 2 * B * s) + s - (a - offset - 2 * B * s)) % s
    have ht : t < s := Nat.mod_lt _ hp
    have e1 : (B * s + t) / s = B := by
      rw [Nat.div_eq_of_lt_le]
      · omega
      · rw [Nat.add_mul, Nat.one_mul]; omega
    have e2 : (B * s + t) % s = t := by
      rw [Nat.mul_comm, Nat.mul_add_mod, Nat.mod_eq_of_lt ht]
    refine ⟨B * s + t, List.mem_range.2 ?_, ?_⟩
    · have h6 : (B + 1) * s ≤ v * s := Nat.mul_le_mul_right _ hB
      rw [Nat.add_mul, Nat.one_mul] at h6
      omega
    · rw [e1, e2, Nat.mul_comm B 2]
      have e3 : a - (s + 2 * B * s - s + offset) = a - offset - 2 * B * s := by omega
      refine ⟨by omega, by omega, ?_, h3⟩
      rw [e3, add_mod_solve (by omega) (by omega)]
      omega
  · rintro i hi ⟨h1, h2, h3, h4⟩
    have hi := List.mem_range.1 hi
    have hB : i / s < v := Nat.div_lt_of_lt_mul (by rw [Nat.mul_comm]; exact hi)
    rw [Nat.mul_comm (i / s) 2] at h1 h2 h3
    generalize i / s = B at *
    have h6 : (B + 1) * s ≤ v * s := Nat.mul_le_mul_right _ hB
    have h7 : 2 * B * s = 2 * (B * s) := Nat.mul_assoc 2 B s
    rw [Nat.add_mul, Nat.one_mul] at h6
    have := Nat.mod_lt (i % s + (a - (s + 2 * B * s - s + offset))) hp
    refine ⟨⟨by omega, by omega, h4⟩, by omega, (halves hp).2 ⟨B, ?_⟩⟩
    omega
  · rintro i - j - ⟨h1, h2, h3, -⟩ ⟨g1, g2, g3, -⟩
    have h5 : i / s = j / s := by
      have key : ∀ B C : Nat, 2 * B * s + s > 2 * C * s → C ≤ B := by
        intro B C h
        by_contra hc
        have h8 : 2 * (B + 1) * s ≤ 2 * C * s := Nat.mul_le_mul_right _ (by omega)
        have h9 : 2 * (B + 1) * s = 2 * B * s + 2 * s := by
          rw [Nat.mul_add, Nat.add_mul]
        omega
      have k1 := key (i / s) (j / s) (by
        rw [Nat.mul_comm (i / s) 2] at h1 h2; rw [Nat.mul_comm (j / s) 2] at g1 g2; omega)
      have k2 := key (j / s) (i / s) (by
        rw [Nat.mul_comm (i / s) 2] at h1 h2; rw [Nat.mul_comm (j / s) 2] at g1 g2; omega)
      omega
    rw [← h5] at g3
    have h6 := add_mod_cancel (Nat.mod_lt i hp) (Nat.mod_lt j hp)
      (r := a - (s + i / s * 2 * s - s + offset)) (by omega)
    rw [← Nat.div_add_mod i s, ← Nat.div_add_mod j s, h5, h6]

theorem diagonalFrom_succ {idx n offset fuel m : Nat} {masked : Bool} :
    diagonalFrom idx n offset masked (fuel + 1) (2 ^ m) =
      diagLevel idx n offset masked (2 ^ m) ++
        diagonalFrom idx n offset masked fuel (2 ^ m / 2) := by
  rw [diagonalFrom, if_pos (Nat.two_pow_pos m)]
  rfl

theorem diagonalFrom_zero {idx n offset : Nat} {masked : Bool} :
    ∀ fuel, diagonalFrom idx n offset masked fuel 0 = []
  | 0 => rfl
  | fuel + 1 => by rw [diagonalFrom, if_neg (by omega)]

theorem levels_add {x y X Y w : Nat} (h : (x < y ∧ X ≤ Y) ∨ (y ≤ x ∧ Y ≤ X)) :
    (if x < w ∧ X / 2 = Y / 2 ∧ X < Y then 1 else 0) + (if x < w ∧ X = Y ∧ x < y then 1 else 0) =
      if x < w ∧ X / 2 = Y / 2 ∧ x < y then 1 else 0 := by
  by_cases hw : x < w
  swap
  · simp [hw]
  simp only [hw, true_and]
  rcases h with ⟨h1, h2⟩ | ⟨h1, h2⟩
  · simp only [h1, and_true]
    by_cases he : X = Y
    · subst he; simp
    · by_cases h3 : X / 2 = Y / 2
      · rw [if_pos ⟨h3, by omega⟩, if_neg he, if_pos h3]
      · rw [if_neg (fun h => h3 h.1), if_neg he, if_neg h3]
  · rw [if_neg (by omega), if_neg (by omega), if_neg (by omega)]

theorem callCount_diagonal {k n offset a b : Nat} {masked : Bool} :
    ∀ {m fuel : Nat}, m ≤ k → m < fuel →
    callCount (2 ^ k) (fun i => diagonalFrom i n offset masked fuel (2 ^ m)) a b =
      if (offset ≤ a ∧ offset ≤ b ∧ (masked = true → a < n ∧ b < n)) ∧ a - offset < 2 * 2 ^ k ∧
        (a - offset) / (2 * 2 ^ m) = (b - offset) / (2 * 2 ^ m) ∧
        a - offset < b - offset then 1 else 0 := by
  intro m
  induction m with
  | zero =>
    intro fuel _ hf
    obtain ⟨fuel, rfl⟩ : ∃ f, fuel = f + 1 := ⟨fuel - 1, by omega⟩
    rw [callCount_congr (g := fun i => diagLevel i n offset masked (2 ^ 0)) fun i _ => ?_,
      callCount_level (by omega)]
    · simp only [Nat.pow_zero, Nat.div_one]
    · rw [diagonalFrom_succ]
      change _ ++ diagonalFrom i n offset masked fuel 0 = _
      rw [diagonalFrom_zero, List.append_nil]
  | succ m ih =>
    intro fuel hm hf
    obtain ⟨fuel, rfl⟩ : ∃ f, fuel = f + 1 := ⟨fuel - 1, by omega⟩
    have e : 2 ^ (m + 1) / 2 = 2 ^ m := by rw [Nat.pow_succ, Nat.mul_div_cancel _ (by omega)]
    simp only [diagonalFrom_succ, e]
    rw [callCount_append, callCount_level hm, ih (by omega) (by omega)]
    generalize a - offset = x
    generalize b - offset = y
    have e2 : 2 * 2 ^ m = 2 ^ (m + 1) := by rw [Nat.pow_succ, Nat.mul_comm]
    rw [e2]
    generalize 2 ^ (m + 1) = s
    have h1 : x / (2 * s) = x / s / 2 := by rw [Nat.mul_comm, Nat.div_div_eq_div_mul]
    have h2 : y / (2 * s) = y / s / 2 := by rw [Nat.mul_comm, Nat.div_div_eq_div_mul]
    rw [h1, h2]
    have h3 : x ≤ y → x / s ≤ y / s := fun h => Nat.div_le_div_right h
    have h4 : y ≤ x → y / s ≤ x / s := fun h => Nat.div_le_div_right h
    have h5 : (x < y ∧ x / s ≤ y / s) ∨ (y ≤ x ∧ y / s ≤ x / s) := by
      rcases Nat.lt_or_ge x y with h | h
      · exact .inl ⟨h, h3 (Nat.le_of_lt h)⟩
      · exact .inr ⟨h, h4 h⟩
    by_cases hc : offset ≤ a ∧ offset ≤ b ∧ (masked = true → a < n ∧ b < n)
    · simp only [eq_true hc, true_and]
      exact levels_add h5
    · simp [hc]

theorem callCount_applyDiagonal {k n offset a b : Nat} {masked : Bool} :
    callCount (2 ^ k) (fun i => applyDiagonal (2 ^ k) i n offset masked) a b =
      if a < b ∧ offset ≤ a ∧ b < offset + 2 ^ k * 2 ∧ (masked = true → a < n ∧ b < n)
      then 1 else 0 := by
  unfold applyDiagonal
  rw [callCount_diagonal (Nat.le_refl k) Nat.lt_two_pow_self]
  have hp := Nat.two_pow_pos k
  generalize 2 ^ k = s at *
  congr 1
  apply propext
  constructor
  · rintro ⟨⟨h1, h2, h3⟩, h4, h5, h6⟩
    rw [Nat.div_eq_of_lt h4] at h5
    have := Nat.lt_of_div_eq_zero (by omega) h5.symm
    exact ⟨by omega, by omega, by omega, h3⟩
  · rintro ⟨h1, h2, h3, h4⟩
    refine ⟨⟨h2, by omega, h4⟩, by omega, ?_, by omega⟩
    rw [Nat.div_eq_of_lt (by omega), Nat.div_eq_of_lt (by omega)]

theorem window_unique {start stop s x c d : Nat} (hs : 0 < s) (hc : c ∈ strided start stop s)
    (hd : d ∈ strided start stop s) (h1 : c ≤ x ∧ x < c + s) (h2 : d ≤ x ∧ x < d + s) : c = d := by
  obtain ⟨p1, -, p2⟩ := (mem_strided hs).1 hc
  obtain ⟨q1, -, q2⟩ := (mem_strided hs).1 hd
  have key : ∀ c, start ≤ c → (c - start) % s = 0 → c ≤ x → x < c + s →
      c = start + (x - start) / s * s := by
    intro c p1 p2 h1 h2
    obtain ⟨q, hq⟩ := Nat.dvd_of_mod_eq_zero p2
    have : (x - start) / s = q := by
      rw [Nat.div_eq_of_lt_le]
      · rw [Nat.mul_comm]; omega
      · rw [Nat.add_mul, Nat.one_mul, Nat.mul_comm]; omega
    rw [this, Nat.mul_comm]; omega
  rw [key c p1 p2 h1.1 h1.2, key d q1 q2 h2.1 h2.2]

theorem window_exists {start stop s x : Nat} (hs : 0 < s) (h1 : start ≤ x) (h2 : x < stop) :
    ∃ c ∈ strided start stop s, c ≤ x ∧ x < c + s := by
  have h6 := Nat.div_mul_le_self (x - start) s
  have h7 := Nat.lt_div_mul_add (a := x - start) hs
  refine ⟨start + (x - start) / s * s, (mem_strided hs).2 ⟨by omega, by omega, ?_⟩, by omega,
    by omega⟩
  rw [Nat.add_sub_cancel_left, Nat.mul_mod_left]

theorem callCount_block {k n padded blocks blockx a b : Nat} (hpad : padded = blocks * (2 ^ k * 2))
    (hn : n ≤ padded) (hl : ∀ c, n ≤ c * (2 ^ k * 2) → blocks ≤ c) (hx : blockx < blocks) :
    callCount (2 ^ k) (fun i => applyBlock (2 ^ k) i n padded blocks blockx) a b =
      if a < b ∧ b < n ∧ blockx * (2 ^ k * 2) ≤ a ∧ a < blockx * (2 ^ k * 2) + 2 ^ k * 2
      then 1 else 0 := by
  unfold applyBlock
  have hp := Nat.two_pow_pos k
  rw [callCount_append, callCount_applyDiagonal, callCount_flatMap]
  simp only [callCount_flatMap, callCount_inner]
  generalize hs : 2 ^ k = s at *
  have hlast : blockx ≠ blocks - 1 → blockx * (s * 2) + s * 2 < n := by
    intro h
    by_contra hc
    have := hl (blockx + 1) (by rw [Nat.add_mul, Nat.one_mul]; omega)
    omega
  have hlast' : blockx = blocks - 1 → blockx * (s * 2) + s * 2 = padded := by
    intro h
    rw [hpad, ← Nat.succ_mul]
    congr 1
    omega
  have hin : blockx * (s * 2) + s * 2 ≤ padded := by
    rw [hpad, ← Nat.succ_mul]
    exact Nat.mul_le_mul_right _ hx
  generalize hoff : blockx * (s * 2) = off at *
  have hcol : ∀ row, row + s ≤ off + s * 2 → ((strided (off + s * 2) padded s).map fun col =>
      if (row ≤ a ∧ a < row + s) ∧ (col ≤ b ∧ b < col + s) ∧
        ((decide (col + s > n) || blockx == blocks - 1) = true → a < n ∧ b < n) then 1 else 0).sum =
      if (row ≤ a ∧ a < row + s) ∧ off + s * 2 ≤ b ∧ b < n then 1 else 0 := by
    intro row hrow
    refine sum_unique (strided_nodup _ _ _) _ _ ?_ ?_ ?_
    · rintro ⟨h1, h2, h3⟩
      obtain ⟨c, c1, c2⟩ := window_exists (start := off + s * 2) (stop := padded) hp h2 (by omega)
      exact ⟨c, c1, h1, c2, fun _ => ⟨by omega, h3⟩⟩
    · rintro col hc ⟨h1, h2, h3⟩
      obtain ⟨c1, c2, -⟩ := (mem_strided hp).1 hc
      refine ⟨h1, by omega, ?_⟩
      by_cases h : col + s > n
      · exact (h3 (by simp [h])).2
      · omega
    · rintro c1 hc1 c2 hc2 ⟨-, h1, -⟩ ⟨-, h2, -⟩
      exact window_unique hp hc1 hc2 h1 h2
  have hrow : ∀ row ∈ strided off (off + s * 2) s, row + s ≤ off + s * 2 := by
    intro row hr
    obtain ⟨h1, h2, h3⟩ := (mem_strided hp).1 hr
    obtain ⟨q, hq⟩ := Nat.dvd_of_mod_eq_zero h3
    have : q < 2 := by
      by_contra hc
      have : s * 2 ≤ s * q := Nat.mul_le_mul_left _ (by omega)
      omega
    have : s * q ≤ s * 1 := Nat.mul_le_mul_left _ (by omega)
    omega
  rw [List.map_congr_left fun row hr => hcol row (hrow row hr)]
  rw [sum_unique (strided_nodup _ _ _) _
    ((off ≤ a ∧ a < off + s * 2) ∧ off + s * 2 ≤ b ∧ b < n)]
  · by_cases h1 : off ≤ a ∧ a < off + s * 2
    swap
    · rw [if_neg, if_neg (fun h => h1 h.1), if_neg (fun h => h1 h.2.2)]
      rintro ⟨g1, g2, g3, -⟩
      exact h1 ⟨g2, by omega⟩
    · by_cases h2 : b < off + s * 2
      · rw [if_neg (c := _ ∧ off + s * 2 ≤ b ∧ b < n) (by omega), Nat.add_zero]
        congr 1
        apply propext
        constructor
        · rintro ⟨g1, -, -, g2⟩
          refine ⟨g1, ?_, h1⟩
          by_cases hx' : blockx = blocks - 1
          · exact (g2 (by simp [hx'])).2
          · have := hlast hx'; omega
        · rintro ⟨g1, g2, -⟩
          exact ⟨g1, h1.1, h2, fun _ => ⟨by omega, g2⟩⟩
      · rw [if_neg (c := a < b ∧ off ≤ a ∧ b < off + s * 2 ∧ _) (fun h => h2 h.2.2.1), Nat.zero_add]
        congr 1
        apply propext
        constructor
        · rintro ⟨-, -, g⟩; exact ⟨by omega, g, h1⟩
        · rintro ⟨-, g, -⟩; exact ⟨h1, by omega, g⟩
  · rintro ⟨⟨h1, h2⟩, h3⟩
    obtain ⟨c, c1, c2⟩ := window_exists (stop := off + s * 2) hp h1 h2
    exact ⟨c, c1, c2, h3⟩
  · rintro row hr ⟨h1, h2⟩
    have := hrow row hr
    have := ((mem_strided hp).1 hr).1
    exact ⟨⟨by omega, by omega⟩, h2⟩
  · rintro c hc d hd ⟨h1, -⟩ ⟨h2, -⟩
    exact window_unique hp hc hd h1 h2

/-! ## One phase -/

theorem apart_map {l : List Nat} {f g : Nat → Option (Nat × Nat)}
    (h : ∀ r ∈ l, Apart (f r) (g r)) : List.Forall₂ Apart (l.map f) (l.map g) := by
  induction l with
  | nil => exact .nil
  | cons x l ih =>
    exact .cons (h x List.mem_cons_self) (ih fun r hr => h r (List.mem_cons_of_mem _ hr))

theorem apart_append {a b c d : List (Option (Nat × Nat))} (h1 : List.Forall₂ Apart a b)
    (h2 : List.Forall₂ Apart c d) : List.Forall₂ Apart (a ++ c) (b ++ d) := by
  induction h1 with
  | nil => exact h2
  | cons h _ ih => exact .cons h ih

theorem apart_flatMap {ι : Type} {l : List ι} {f g : ι → List (Option (Nat × Nat))}
    (h : ∀ c ∈ l, List.Forall₂ Apart (f c) (g c)) :
    List.Forall₂ Apart (l.flatMap f) (l.flatMap g) := by
  induction l with
  | nil => exact .nil
  | cons x l ih =>
    simp only [List.flatMap_cons]
    exact apart_append (h x List.mem_cons_self) (ih fun r hr => h r (List.mem_cons_of_mem _ hr))

theorem cellCall_some {masked : Bool} {n row col : Nat} {p : Nat × Nat}
    (h : cellCall masked n row col = some p) : p.1 = row ∧ p.2 = col := by
  obtain ⟨a, b⟩ := p
  obtain ⟨h1, h2, -⟩ := cellCall_eq_some.1 h
  exact ⟨h1.symm, h2.symm⟩

/-- Two blocks with the same place. -/
theorem apart_inner {m i j row col n : Nat} {masked : Bool} (hi : i < 2 ^ m) (hj : j < 2 ^ m)
    (hij : i ≠ j) (hrc : row + 2 ^ m ≤ col) :
    List.Forall₂ Apart (innerBlock i (2 ^ m) row col n masked)
      (innerBlock j (2 ^ m) row col n masked) := by
  rw [innerBlock_eq hi, innerBlock_eq hj]
  refine apart_map fun r hr p q hp hq => ?_
  have hr := List.mem_range.1 hr
  obtain ⟨p1, p2⟩ := cellCall_some hp
  obtain ⟨q1, q2⟩ := cellCall_some hq
  rw [p1, p2, q1, q2]
  refine ⟨fun h => hij (add_mod_cancel hi hj (r := r) (by omega)), by omega, by omega⟩

/-- Two blocks of which the rows and columns of one come before those of the other. -/
theorem apart_far {m i j row col row' col' n : Nat} {masked : Bool} (hi : i < 2 ^ m)
    (hj : j < 2 ^ m) (h1 : row + 2 ^ m ≤ col) (h2 : col + 2 ^ m ≤ row')
    (h3 : row' + 2 ^ m ≤ col') :
    List.Forall₂ Apart (innerBlock i (2 ^ m) row col n masked)
      (innerBlock j (2 ^ m) row' col' n masked) := by
  rw [innerBlock_eq hi, innerBlock_eq hj]
  refine apart_map fun r hr p q hp hq => ?_
  have hr := List.mem_range.1 hr
  obtain ⟨p1, p2⟩ := cellCall_some hp
  obtain ⟨q1, q2⟩ := cellCall_some hq
  rw [p1, p2, q1, q2]
  have := Nat.mod_lt (i + r) (Nat.two_pow_pos m)
  have := Nat.mod_lt (j + r) (Nat.two_pow_pos m)
  omega

theorem apart_symm {a b : List (Option (Nat × Nat))} (h : List.Forall₂ Apart a b) :
    List.Forall₂ Apart b a := by
  induction h with
  | nil => exact .nil
  | cons h _ ih =>
    refine .cons (fun p q hp hq => ?_) ih
    obtain ⟨h1, h2, h3⟩ := h q p hq hp
    exact ⟨h1.symm, h3.symm, h2.symm⟩

theorem apart_level_lt {m i j n offset : Nat} {masked : Bool} (hlt : i / 2 ^ m < j / 2 ^ m) :
    List.Forall₂ Apart (diagLevel i n offset masked (2 ^ m))
      (diagLevel j n offset masked (2 ^ m)) := by
  have hp := Nat.two_pow_pos m
  unfold diagLevel
  have h : (i / 2 ^ m + 1) * 2 * 2 ^ m ≤ j / 2 ^ m * 2 * 2 ^ m :=
    Nat.mul_le_mul_right _ (Nat.mul_le_mul_right _ hlt)
  rw [Nat.add_mul, Nat.add_mul] at h
  refine apart_far (Nat.mod_lt _ hp) (Nat.mod_lt _ hp) ?_ ?_ ?_ <;> omega

theorem apart_level {m i j n offset : Nat} {masked : Bool} (hij : i ≠ j) :
    List.Forall₂ Apart (diagLevel i n offset masked (2 ^ m))
      (diagLevel j n offset masked (2 ^ m)) := by
  have hp := Nat.two_pow_pos m
  rcases Nat.lt_trichotomy (i / 2 ^ m) (j / 2 ^ m) with h | h | h
  · exact apart_level_lt h
  · unfold diagLevel
    rw [h]
    refine apart_inner (Nat.mod_lt _ hp) (Nat.mod_lt _ hp) (fun he => hij ?_) (by omega)
    rw [← Nat.div_add_mod i (2 ^ m), ← Nat.div_add_mod j (2 ^ m), h, he]
  · exact apart_symm (apart_level_lt h)

theorem apart_diagonal {i j n offset : Nat} {masked : Bool} (hij : i ≠ j) :
    ∀ (fuel m : Nat), List.Forall₂ Apart (diagonalFrom i n offset masked fuel (2 ^ m))
      (diagonalFrom j n offset masked fuel (2 ^ m)) := by
  intro fuel
  induction fuel with
  | zero => intro m; exact .nil
  | succ fuel ih =>
    intro m
    rw [diagonalFrom_succ, diagonalFrom_succ]
    refine apart_append (apart_level hij) ?_
    cases m with
    | zero =>
      change List.Forall₂ Apart (diagonalFrom i n offset masked fuel 0)
        (diagonalFrom j n offset masked fuel 0)
      rw [diagonalFrom_zero, diagonalFrom_zero]
      exact .nil
    | succ m =>
      rw [Nat.pow_succ, Nat.mul_div_cancel _ (by omega)]
      exact ih m

theorem apart_block {k i j n padded blocks blockx : Nat} (hi : i < 2 ^ k) (hj : j < 2 ^ k)
    (hij : i ≠ j) : List.Forall₂ Apart (applyBlock (2 ^ k) i n padded blocks blockx)
      (applyBlock (2 ^ k) j n padded blocks blockx) := by
  unfold applyBlock applyDiagonal
  have hp := Nat.two_pow_pos k
  refine apart_append (apart_diagonal hij _ _) (apart_flatMap fun row hr =>
    apart_flatMap fun col hc => apart_inner hi hj hij ?_)
  obtain ⟨h1, h2, h3⟩ := (mem_strided hp).1 hr
  have h4 := ((mem_strided hp).1 hc).1
  obtain ⟨q, hq⟩ := Nat.dvd_of_mod_eq_zero h3
  generalize 2 ^ k = s at *
  have : q < 2 := by
    by_contra hc
    have : s * 2 ≤ s * q := Nat.mul_le_mul_left _ (by omega)
    omega
  have : s * q ≤ s * 1 := Nat.mul_le_mul_left _ (by omega)
  omega

end NP
