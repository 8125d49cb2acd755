import Verif.Common.Kernel
import Mathlib.Algebra.Group.Defs

/-!
# Model: integer helpers, scans and transpose

Models `include/neso_particles/typedefs.hpp:156-231,477-479` and
`include/neso_particles/algorithms/common.hpp:18-525` (+
`src/algorithms/common.cpp:12-31`).
-/

set_option autoImplicit false

namespace NP

/-! ## Work decomposition -/

/-- `get_decomp_1d`, `typedefs.hpp:156-187` (the `int` template and the `size_t`
overload have the same body).  `none`: `N_compute_units == 0` (division by
zero).  Simplification: the integers are unbounded and non negative. -/
def getDecomp1d (nUnits nItems i : Nat) : Option (Nat × Nat) :=
  if nUnits = 0 then none else
    let p := nItems / nUnits
    let q := nItems % nUnits
    let n := if i < q then p + 1 else p
    let start := (min i q) * (p + 1) + (if i > q then (i - q) * p else 0)
    some (start, start + n)

/-- `get_decomp_1d_inverse`, `typedefs.hpp:189-203`.  `none`: division by zero,
either by `N_compute_units` or by `p` on line 201. -/
def getDecomp1dInverse (nUnits nItems w : Nat) : Option Nat :=
  if nUnits = 0 then none else
    let p := nItems / nUnits
    let q := nItems % nUnits
    let nlower := p + 1
    let cutoff := nlower * q
    if w < cutoff then some (w / nlower)
    else if p = 0 then none else some (q + (w - cutoff) / p)

/-! ## Rounding helpers -/

/-- `static_cast<int>(std::log2(static_cast<double>(N)))`, as used in
`typedefs.hpp:207-208,215-216`.  `none`: `N == 0` (`-inf` cast to `int`).
Simplification: `std::log2` is exact, so the cast is `floor(log2 N)`. -/
def log2Int (N : Nat) : Option Nat := if N = 0 then none else some (Nat.log2 N)

/-- `int(1) << k`; `none`: the result does not fit in a 32 bit `int`. -/
def oneShl (k : Nat) : Option Nat := if k < 31 then some (2 ^ k) else none

/-- `get_min_power_of_two`, `typedefs.hpp:205-212`. -/
def getMinPowerOfTwo (N maxSize : Nat) : Option Nat :=
  (log2Int N).bind fun k => (oneShl (k + 1)).bind fun t =>
    some (min (max t 4) maxSize)

/-- `get_prev_power_of_two`, `typedefs.hpp:214-219`. -/
def getPrevPowerOfTwo (N : Nat) : Option Nat :=
  (log2Int N).bind fun k => (oneShl k).bind fun t => some (max t 1)

/-- `get_next_multiple`, `typedefs.hpp:221-225`. `none`: division by zero. -/
def getNextMultiple (N M : Nat) : Option Nat :=
  if M = 0 then none else some ((N + (M - 1)) / M * M)

/-- `div_round_up`, `typedefs.hpp:227-231`. `none`: division by zero. -/
def divRoundUp (N M : Nat) : Option Nat :=
  if M = 0 then none else
    let q0 := N / M
    some (if q0 * M < N then q0 + 1 else q0)

/-- `is_power_of_two`, `typedefs.hpp:477-479`. -/
def isPowerOfTwo (n : Nat) : Bool := if n > 0 then (n &&& (n - 1)) == 0 else false

/-! ## Scans -/

section Scan

variable {α : Type} [AddCommMonoid α]

/-- The values written by `sycl::joint_exclusive_scan(..., sycl::plus)` with
running total `acc`.  This is the SYCL built in, assumed to be correct. -/
def exclusiveFrom (acc : α) : List α → List α
  | [] => []
  | x :: xs => acc :: exclusiveFrom (acc + x) xs

/-- The values written by `sycl::joint_inclusive_scan(..., sycl::plus)`. -/
def inclusiveFrom (acc : α) : List α → List α
  | [] => []
  | x :: xs => (acc + x) :: inclusiveFrom (acc + x) xs

/-- `sycl::joint_exclusive_scan(group, src + first, src + last, dst + out, plus)`. -/
def syclExclusiveScan (src : List α) (first last : Nat) (dst : List α) (out : Nat) :
    Option (List α) :=
  (slice src first last).bind fun s => stRange dst out (exclusiveFrom 0 s)

/-- `sycl::joint_inclusive_scan(group, src + first, src + last, dst + out, plus)`. -/
def syclInclusiveScan (src : List α) (first last : Nat) (dst : List α) (out : Nat) :
    Option (List α) :=
  (slice src first last).bind fun s => stRange dst out (inclusiveFrom 0 s)

/-- `joint_exclusive_scan(sycl_target, N, d_src, d_dst)`,
`algorithms/common.hpp:18-45`.  `none` also covers the assertion of line 30. -/
def jointExclusiveScanGroup (localSize N : Nat) (src dst : List α) : Option (List α) :=
  if N = 0 then some dst
  else if localSize < 1 then none
  else (syclExclusiveScan src 0 N dst 0).bind fun dst => st dst 0 0

/-- `get_joint_exclusive_scan_aux_num_blocks`, `src/algorithms/common.cpp:12-25`. -/
def scanNumBlocks (localSize maxComputeUnits N : Nat) : Option Nat :=
  (divRoundUp N localSize).bind fun k => some (min k maxComputeUnits)

/-- `get_joint_exclusive_scan_aux_array_size`, `src/algorithms/common.cpp:27-31`. -/
def scanAuxSize (localSize maxComputeUnits N : Nat) : Option Nat :=
  (scanNumBlocks localSize maxComputeUnits N).bind fun k => some (2 * k)

/-- Body of the first kernel, `algorithms/common.hpp:112-128`: one work group
scans one block. -/
def scanBlockStep (numBlocks N : Nat) (src : List α) (b : Nat) (dst : List α) :
    Option (List α) :=
  (getDecomp1d numBlocks N b).bind fun r =>
    (syclExclusiveScan src r.1 r.2 dst r.1).bind fun dst => st dst r.1 0

/-- Body of the loop in the second kernel, `algorithms/common.hpp:135-145`: the
total of block `ix` is stored in the auxiliary array. -/
def scanTotalStep (numBlocks N : Nat) (src dst : List α) (ix : Nat) (aux : List α) :
    Option (List α) :=
  (getDecomp1d numBlocks N ix).bind fun r =>
    if r.2 = 0 then none else  -- `end_index - 1` would wrap around
      (rd dst (r.2 - 1)).bind fun a => (rd src (r.2 - 1)).bind fun b => st aux ix (a + b)

/-- Iterations of the third kernel, `algorithms/common.hpp:165-174`: work item
`local_index` of block `block_index + 1` visits a strided range. -/
def scanShiftItems (localSize numBlocks N : Nat) : List (Nat × Nat) :=
  (List.range (numBlocks - 1)).flatMap fun g =>
    (List.range localSize).flatMap fun l =>
      match getDecomp1d numBlocks N (g + 1) with
      | none => []
      | some r => (strided (l + r.1) r.2 localSize).map fun ix => (g + 1, ix)

/-- Body of the third kernel, `algorithms/common.hpp:172-177`. -/
def scanShiftStep (numBlocks : Nat) (aux : List α) (it : Nat × Nat) (dst : List α) :
    Option (List α) :=
  (rd aux (numBlocks + it.1)).bind fun shift =>
    (rd dst it.2).bind fun v => st dst it.2 (v + shift)

/-- `joint_exclusive_scan(sycl_target, N, d_aux, d_src, d_dst)`,
`algorithms/common.hpp:89-181`.  The three kernels run their work items in the
orders `s0 s1 s2`; returns the final `d_dst`. The addition on line 176 is
`d_dst[ix] + shift`, over a commutative type. -/
def jointExclusiveScanAux (s0 s1 s2 : Sched) (localSize maxComputeUnits N : Nat)
    (aux src dst : List α) : Option (List α) :=
  if N = 0 then some dst else
  (scanNumBlocks localSize maxComputeUnits N).bind fun numBlocks =>
  if numBlocks < 2 then jointExclusiveScanGroup localSize N src dst else
  (runItems (scanBlockStep numBlocks N src) (s0.order (List.range numBlocks)) dst).bind
    fun dst =>
  (runItems (scanTotalStep numBlocks N src dst) (s1.order (List.range numBlocks)) aux).bind
    fun aux =>
  (syclExclusiveScan aux 0 numBlocks aux numBlocks).bind fun aux =>
  (st aux numBlocks 0).bind fun aux =>
  runItems (scanShiftStep numBlocks aux) (s2.order (scanShiftItems localSize numBlocks N)) dst

/-- `joint_exclusive_scan_blocking`, `algorithms/common.hpp:193-224`.  `fresh`
gives the (uninitialised, hence arbitrary) contents of the auxiliary buffer of
the requested size. -/
def jointExclusiveScanBlocking (s0 s1 s2 : Sched) (localSize maxComputeUnits N : Nat)
    (fresh : Fresh α) (src dst : List α) :
    Option (List α) :=
  (scanNumBlocks localSize maxComputeUnits N).bind fun numBlocks =>
  if numBlocks < 2 then jointExclusiveScanGroup localSize N src dst else
  (scanAuxSize localSize maxComputeUnits N).bind fun n =>
    jointExclusiveScanAux s0 s1 s2 localSize maxComputeUnits N (fresh n).1 src dst

/-- Body of `joint_exclusive_scan_n`, `algorithms/common.hpp:260-273`, for array
`a`. Sizes and offsets are taken to be non negative. -/
def exScanNStep (sizes offsets : List Nat) (src : List α) (a : Nat) (dst : List α) :
    Option (List α) :=
  (rd sizes a).bind fun n =>
    if n > 0 then
      (rd offsets a).bind fun o =>
        (syclExclusiveScan src o (o + n) dst o).bind fun dst => st dst o 0
    else some dst

/-- `joint_exclusive_scan_n` (variable sizes), `algorithms/common.hpp:238-275`. -/
def jointExclusiveScanN (s : Sched) (localSize N : Nat) (sizes offsets : List Nat)
    (src dst : List α) : Option (List α) :=
  if N = 0 then some dst
  else if localSize < 1 then none
  else runItems (exScanNStep sizes offsets src) (s.order (List.range N)) dst

/-- Body of `joint_exclusive_scan_n` (fixed size `M`), `algorithms/common.hpp:318-331`. -/
def exScanNMStep (M : Nat) (src : List α) (a : Nat) (dst : List α) : Option (List α) :=
  if M > 0 then
    (syclExclusiveScan src (M * a) (M * a + M) dst (M * a)).bind fun dst =>
      st dst (M * a) 0
  else some dst

/-- `joint_exclusive_scan_n` (fixed size `M`), `algorithms/common.hpp:300-332`. -/
def jointExclusiveScanNM (s : Sched) (localSize N M : Nat) (src dst : List α) :
    Option (List α) :=
  if N = 0 then some dst
  else if localSize < 1 then none
  else runItems (exScanNMStep M src) (s.order (List.range N)) dst

/-- Body of `joint_inclusive_scan_n`, `algorithms/common.hpp:368-378`. -/
def incScanNStep (sizes offsets : List Nat) (src : List α) (a : Nat) (dst : List α) :
    Option (List α) :=
  (rd sizes a).bind fun n =>
    if n > 0 then
      (rd offsets a).bind fun o => syclInclusiveScan src o (o + n) dst o
    else some dst

/-- `joint_inclusive_scan_n`, `algorithms/common.hpp:346-380`. -/
def jointInclusiveScanN (s : Sched) (localSize N : Nat) (sizes offsets : List Nat)
    (src dst : List α) : Option (List α) :=
  if N = 0 then some dst
  else if localSize < 1 then none
  else runItems (incScanNStep sizes offsets src) (s.order (List.range N)) dst

/-- Body of the totals kernel, `algorithms/common.hpp:412-422`. -/
def scanSumStep (sizes offsets : List Nat) (src dst : List α) (ix : Nat)
    (sums : List α) : Option (List α) :=
  (rd sizes ix).bind fun n =>
    if n = 0 then st sums ix 0
    else
      (rd offsets ix).bind fun o =>
        (rd src (o + n - 1)).bind fun lastValue =>
          (rd dst (o + n - 1)).bind fun lastValueEx => st sums ix (lastValue + lastValueEx)

/-- `joint_exclusive_scan_n_sum`, `algorithms/common.hpp:397-425`; returns
`(d_dst, d_dst_sum)`. -/
def jointExclusiveScanNSum (s0 s1 : Sched) (localSize N : Nat) (sizes offsets : List Nat)
    (src dst sums : List α) : Option (List α × List α) :=
  if N = 0 then some (dst, sums) else
  (jointExclusiveScanN s0 localSize N sizes offsets src dst).bind fun dst =>
    (runItems (scanSumStep sizes offsets src dst) (s1.order (List.range N)) sums).bind
      fun sums => some (dst, sums)

end Scan

/-! ## Transpose -/

section Transpose

variable {α : Type}

/-- A work item of the transpose kernel: group and local indices
(`group_row`, `group_col`, `local_row`, `local_col`). -/
structure TItem where
  gr : Nat
  gc : Nat
  lr : Nat
  lc : Nat
deriving DecidableEq

/-- First half of the kernel, `algorithms/common.hpp:481-497`: work item
`(lr, lc)` of group `(gr, gc)` fills its entry of the group's local memory.
`get_global_id(d) = group * local_range + local_id`. -/
def transposeRead [Zero α] (rows cols lsr lsc : Nat) (src : List α) (gr gc : Nat)
    (it : Nat × Nat) (lmem : List α) : Option (List α) :=
  let readRow := gr * lsr + it.1
  let readCol := gc * lsc + it.2
  (if readRow < rows ∧ readCol < cols then rd src (readRow * cols + readCol)
    else some 0).bind fun v => st lmem (it.1 * lsc + it.2) v

/-- Second half of the kernel, `algorithms/common.hpp:500-522`, after the
barrier.  `get_local_linear_id() = lr * local_size_col + lc`. -/
def transposeWrite (rows cols lsr lsc : Nat) (lmem : Nat → Nat → List α)
    (it : TItem) (dst : List α) : Option (List α) :=
  let lin := it.lr * lsc + it.lc
  let lwr := lin / lsr
  let lwc := lin % lsr
  (rd (lmem it.gr it.gc) (lwc * lsc + lwr)).bind fun v =>
    let writeRow := it.gc * lsc + lwr
    let writeCol := it.gr * lsr + lwc
    if writeRow < cols ∧ writeCol < rows then st dst (writeRow * rows + writeCol) v
    else some dst

/-- All pairs `(i, j)` with `i < n`, `j < m`. -/
def pairs (n m : Nat) : List (Nat × Nat) :=
  (List.range n).flatMap fun i => (List.range m).map fun j => (i, j)

/-- All work items of an nd-range with `ngr * ngc` groups of `lsr * lsc` items. -/
def transposeItems (ngr ngc lsr lsc : Nat) : List TItem :=
  (pairs ngr ngc).flatMap fun g => (pairs lsr lsc).map fun l => ⟨g.1, g.2, l.1, l.2⟩

/-- `matrix_transpose`, `algorithms/common.hpp:450-525`.  `localSize` is the value
returned by `get_num_local_work_items` (line 461-462); `sqrtL` is its truncated
square root (line 463).  `garbage` is the arbitrary initial local memory of each
work group.  The barrier separates the reads from the writes of a group; the
model runs all reads of a group before the writes of any group, which is
equivalent because groups only share `dst` (written) and `src` (read).  Both
halves run in arbitrary orders. -/
def matrixTranspose [Zero α] (s0 s1 : Sched) (sqrtL rows cols : Nat)
    (garbage : Nat → Nat → Fresh α) (src dst : List α) : Option (List α) :=
  if rows ≤ 1 ∨ cols ≤ 1 then some dst else
  (getPrevPowerOfTwo (min rows sqrtL)).bind fun lsr =>
  (getPrevPowerOfTwo (min cols sqrtL)).bind fun lsc =>
  (getNextMultiple rows lsr).bind fun gRows =>
  (getNextMultiple cols lsc).bind fun gCols =>
  let ngr := gRows / lsr
  let ngc := gCols / lsc
  let lmem? := fun gr gc =>
    runItems (transposeRead rows cols lsr lsc src gr gc) (s0.order (pairs lsr lsc))
      (garbage gr gc (lsr * lsc)).1
  if ∀ g ∈ pairs ngr ngc, (lmem? g.1 g.2).isSome then
    runItems (transposeWrite rows cols lsr lsc (fun gr gc => (lmem? gr gc).getD []))
      (s1.order (transposeItems ngr ngc lsr lsc)) dst
  else none

end Transpose

end NP
