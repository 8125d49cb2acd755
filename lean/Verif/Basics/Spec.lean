/-!
# Specifications for the basics area

These do not refer to the model.
-/

set_option autoImplicit false

namespace NP.Spec

/-- `r 0, ..., r (n-1)` are half open ranges that cut `[0, N)` in `n` consecutive
pieces of nearly equal size, so every `w < N` is in exactly one of them. -/
structure BalancedPartition (n N : Nat) (r : Nat → Nat × Nat) : Prop where
  first : (r 0).1 = 0
  last : (r (n - 1)).2 = N
  consecutive : ∀ i, i + 1 < n → (r i).2 = (r (i + 1)).1
  ordered : ∀ i, i < n → (r i).1 ≤ (r i).2
  exactlyOne : ∀ w, w < N →
    ∃ i, i < n ∧ (r i).1 ≤ w ∧ w < (r i).2 ∧
      ∀ j, j < n → (r j).1 ≤ w → w < (r j).2 → j = i
  balanced : ∀ i j, i < n → j < n → (r i).2 - (r i).1 ≤ (r j).2 - (r j).1 + 1

/-- `x` is the least natural number with property `P`. -/
def IsLeastNat (P : Nat → Prop) (x : Nat) : Prop := P x ∧ ∀ y, P y → x ≤ y

/-- `x` is the greatest natural number with property `P`. -/
def IsGreatestNat (P : Nat → Prop) (x : Nat) : Prop := P x ∧ ∀ y, P y → y ≤ x

/-- `x` is a power of two. -/
def IsPow2 (x : Nat) : Prop := ∃ k, x = 2 ^ k

/-- Array `out` holds at positions `o, ..., o + n - 1` the sums of the elements of
`src` from position `o` up to, and not including, that position. -/
def HoldsExclusiveSums {α : Type} [Add α] [Zero α] (src out : List α) (o n : Nat) : Prop :=
  ∀ i, i < n → out[o + i]? = some (((src.drop o).take i).sum)

/-- Array `out` holds at positions `o, ..., o + n - 1` the sums of the elements of
`src` from position `o` up to and including that position. -/
def HoldsInclusiveSums {α : Type} [Add α] [Zero α] (src out : List α) (o n : Nat) : Prop :=
  ∀ i, i < n → out[o + i]? = some (((src.drop o).take (i + 1)).sum)

/-- `[o a, o a + n a)` for `a < N` are pairwise disjoint ranges inside `[0, len)`. -/
structure DisjointSegments (N : Nat) (o n : Nat → Nat) (len : Nat) : Prop where
  inside : ∀ a, a < N → o a + n a ≤ len
  disjoint : ∀ a b, a < N → b < N → a ≠ b → ∀ k,
    ¬ (o a ≤ k ∧ k < o a + n a ∧ o b ≤ k ∧ k < o b + n b)

/-- Row major `cols × rows` matrix `dst` is the transpose of the row major
`rows × cols` matrix `src`. -/
def IsTranspose {α : Type} (rows cols : Nat) (src dst : List α) : Prop :=
  ∀ r c, r < rows → c < cols → dst[c * rows + r]? = src[r * cols + c]?

end NP.Spec
