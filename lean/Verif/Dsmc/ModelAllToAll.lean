import Verif.Basics.Model

/-!
# Model: `CellwiseAllToAll`

The loop over all pairs of `n` items by the work items of a work group,
algorithms/dsmc/cellwise_all_to_all.hpp. What one work item does is the list of its phases: a
phase is what happens between two calls of `sync_func`, a call of the kernel with a row and a
column or nothing. The parameter `n` is not negative.
-/

set_option autoImplicit false

namespace NP

/-- The loop over rows of `apply_inner_block`, cellwise_all_to_all.hpp:25-43: `rows` rows are
left, `row` is `rowx`. Without a mask the kernel is always called. -/
def innerRows (size col0 n : Nat) (masked : Bool) : Nat → Nat → Nat → List (Option (Nat × Nat))
  | 0, _, _ => []
  | rows + 1, row, index =>
    (if masked then
      if row < n ∧ index + col0 < n then some (row, index + col0) else none
    else some (row, index + col0)) ::
      innerRows size col0 n masked rows (row + 1) ((index + 1) &&& (size - 1))

/-- `apply_inner_block`, cellwise_all_to_all.hpp:16-44. -/
def innerBlock (item size row0 col0 n : Nat) (masked : Bool) : List (Option (Nat × Nat)) :=
  innerRows size col0 n masked size row0 item

/-- The loop of `apply_diagonal` over sizes, cellwise_all_to_all.hpp:52-69. The first argument
bounds the number of iterations. -/
def diagonalFrom (idx n offset : Nat) (masked : Bool) : Nat → Nat → List (Option (Nat × Nat))
  | 0, _ => []
  | fuel + 1, size =>
    if size > 0 then
      let block := idx / size
      let item := idx % size
      let endRow := size + block * 2 * size
      let startRow := endRow - size
      let startCol := endRow
      innerBlock item size (startRow + offset) (startCol + offset) n masked ++
        diagonalFrom idx n offset masked fuel (size / 2)
    else []

/-- `apply_diagonal`, cellwise_all_to_all.hpp:46-70. The size is halved until it is zero, which
takes at most as many iterations as the work group has work items. -/
def applyDiagonal (wg idx n offset : Nat) (masked : Bool) : List (Option (Nat × Nat)) :=
  diagonalFrom idx n offset masked wg wg

/-- One iteration of the loop over blocks of `apply`, cellwise_all_to_all.hpp:80-101. -/
def applyBlock (wg idx n padded blocks blockx : Nat) : List (Option (Nat × Nat)) :=
  let offset := blockx * (wg * 2)
  let last := blockx == blocks - 1
  applyDiagonal wg idx n offset last ++
    (strided offset (offset + wg * 2) wg).flatMap fun row =>
      (strided (offset + wg * 2) padded wg).flatMap fun col =>
        innerBlock idx wg row col n (decide (col + wg > n) || last)

/-- `apply`, cellwise_all_to_all.hpp:72-103, of work item `idx` of a work group of `wg` work
items. `none`: division by zero. -/
def applyAll (wg idx n : Nat) : Option (List (Option (Nat × Nat))) :=
  (getNextMultiple n (wg * 2)).bind fun padded =>
    let blocks := padded / (wg * 2)
    some ((List.range blocks).flatMap (applyBlock wg idx n padded blocks))

end NP
