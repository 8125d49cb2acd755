import Verif.Pair.ModelLoop
import Verif.Basics.Model
import Mathlib.Data.Rat.Defs

/-!
# Model: checks and statistics of lists of blocks

Models `src/pair_loop/cellwise_pair_list_block.cpp`. Integer overflow is not modelled; the numbers
of waves and pairs in the device structure are not negative.
-/

set_option autoImplicit false

namespace NP

/-! ## The list on the host -/

/-- The loop over cells of `get_host_pair_list`, cellwise_pair_list_block.cpp:43-59: `counts` are
the pair counts of the cells that are left and `offset` is the number of pairs before them. `.at`
fails outside of the vectors. -/
def hostCells (is js ws : List Int) : Nat → List Nat → Option (List (List Int × List Int × List Int))
  | _, [] => some []
  | offset, n :: counts =>
    ((List.range n).mapM fun ix => rd is (offset + ix)).bind fun ci =>
    ((List.range n).mapM fun ix => rd js (offset + ix)).bind fun cj =>
    ((List.range n).mapM fun ix => rd ws (offset + ix)).bind fun cw =>
    (hostCells is js ws (offset + n) counts).bind fun l => some ((ci, cj, cw) :: l)

/-- `get_host_pair_list`, cellwise_pair_list_block.cpp:6-62: for each cell the first particles, the
second particles and the waves. -/
def BlockView.hostPairs (v : BlockView) : Option (List (List Int × List Int × List Int)) :=
  (slice v.pairCounts 0 v.cellCount).bind fun counts =>
  (slice v.pairList 0 v.pairCount).bind fun is =>
  (slice v.pairList v.pairCount (v.pairCount + v.pairCount)).bind fun js =>
  (slice v.pairList (v.pairCount * 2) (v.pairCount * 2 + v.pairCount)).bind fun ws =>
  hostCells is js ws 0 counts

/-! ## Validation -/

/-- `NESO_KERNEL_ASSERT`, error_propagate.hpp:84-89: what is added to the flag. -/
def kernelAssert (p : Prop) [Decidable p] : Nat := if p then 0 else 1

/-- A pair of a block as it is held in local memory: `i`, `j` and the wave. -/
structure LanePair where
  i : Int
  j : Int
  w : Int
deriving DecidableEq, Inhabited

/-- The pair of one position of a block, cellwise_pair_list_block.cpp:131-149; dummy values if
there is no pair. -/
def BlockView.lanePair (v : BlockView) (cell n pos : Nat) : Option LanePair :=
  if pos < n then (v.read cell pos).bind fun r => some ⟨r.1, r.2.1, r.2.2.1⟩
  else some ⟨-2, -3, -4⟩

/-- The assertions about one pair, cellwise_pair_list_block.cpp:142 and 150-154. -/
def laneErrors (maxWave nw n pos : Nat) (x : LanePair) : Nat :=
  kernelAssert (x.i ≠ x.j) +
    (if pos < n then kernelAssert (0 ≤ x.w ∧ x.w < maxWave) + kernelAssert (0 ≤ x.w ∧ x.w < nw)
    else 0)

/-- The assertions about two pairs in the same wave, cellwise_pair_list_block.cpp:172-177. -/
def conflictErrors (x y : LanePair) : Nat :=
  if x.w = y.w then
    kernelAssert (x.i ≠ y.i) + kernelAssert (x.j ≠ y.j) + kernelAssert (x.i ≠ y.j) +
      kernelAssert (x.j ≠ y.i)
  else 0

/-- The loop over pairs of pairs, cellwise_pair_list_block.cpp:162-180: the number of errors and
the number of pairs. -/
def conflictLoop : List LanePair → Nat × Nat
  | [] => (0, 0)
  | x :: l =>
    let r := conflictLoop l
    if x.w > -1 then ((l.map (conflictErrors x)).sum + r.1, 1 + r.2) else r

/-- One block, cellwise_pair_list_block.cpp:124-181: the number of errors and the number of
pairs. -/
def BlockView.validateBlock (v : BlockView) (cell n block : Nat) : Option (Nat × Nat) :=
  (rd v.waveCounts (block * v.cellCount + cell)).bind fun nw =>
  let base := block * v.blockSize
  ((List.range v.blockSize).mapM fun lane => v.lanePair cell n (base + lane)).bind fun xs =>
  let e1 := (xs.zipIdx.map fun x => laneErrors v.maxWaveCount nw n (base + x.2) x.1).sum
  let seen : Int := xs.zipIdx.foldl (fun m x => if base + x.2 < n then max x.1.w m else m) 0
  let r := conflictLoop xs
  some (e1 + kernelAssert (seen + 1 = nw) + r.1, r.2)

/-- One work item, cellwise_pair_list_block.cpp:98-182. -/
def BlockView.validateCell (v : BlockView) (cell : Nat) : Option (Nat × Nat) :=
  (rd v.pairCounts cell).bind fun n =>
  (if cell = 0 then (rd v.pairCountsEs 0).bind fun es => some (kernelAssert (es = 0))
    else some 0).bind fun e1 =>
  (if cell < v.cellCount - 1 then
    (rd v.pairCountsEs cell).bind fun c0 => (rd v.pairCountsEs (cell + 1)).bind fun c1 =>
    some (kernelAssert ((n : Int) = (c1 : Int) - c0))
    else some 0).bind fun e2 =>
  (divRoundUp n v.blockSize).bind fun nb =>
  ((List.range nb).mapM fun block => v.validateBlock cell n block).bind fun rs =>
  some (e1 + e2 + (rs.map Prod.fst).sum, (rs.map Prod.snd).sum)

/-- `validate_pair_list`, cellwise_pair_list_block.cpp:64-198. The state of the kernel is the flag
and the pair counter, to which work items add atomically. -/
def BlockView.validate (v : BlockView) (sched : Sched) : Option Bool :=
  if v.maxWaveCount > v.blockSize then some false
  else
    (runItems (fun cell (s : Nat × Nat) => (v.validateCell cell).bind fun r =>
      some (s.1 + r.1, s.2 + r.2)) (sched.order (List.range v.cellCount)) (0, 0)).bind fun s =>
    if s.2 ≠ v.pairCount then some false
    else if s.1 ≠ 0 then some false
    else some true

/-! ## Occupancy of waves -/

/-- The wave of one position of a block, -1 if there is no pair,
cellwise_pair_list_block.cpp:243-247. -/
def BlockView.laneWave (v : BlockView) (cell n pos : Nat) : Option Int :=
  if pos < n then (v.read cell pos).bind fun r => some r.2.2.1 else some (-1)

/-- One block, cellwise_pair_list_block.cpp:242-273. The state is `la_occupancy_counts`; the work
items increment its elements atomically, in any order. -/
def BlockView.occupancyBlock (v : BlockView) (sched : Sched) (cell n block : Nat) (la : List Nat) :
    Option (List Nat) :=
  ((List.range v.blockSize).mapM fun lane => v.laneWave cell n (lane + block * v.blockSize)).bind
    fun waves =>
  (rd v.waveCounts (block * v.cellCount + cell)).bind fun nw =>
  runItems (fun (lane : Nat) la =>
    let count := waves.countP fun w => w == (lane : Int)
    if lane < nw then (fetchAdd la count).bind fun r => some r.2 else some la)
    (sched.order (List.range v.blockSize)) la

/-- The work group of one cell, cellwise_pair_list_block.cpp:229-282. The counters in global memory
are only added to, so all additions of a work group may be taken to happen at its end. -/
def BlockView.occupancyCell (v : BlockView) (sched : Nat → Nat → Sched) (cell : Nat)
    (counts : List Nat) : Option (List Nat) :=
  (rd v.pairCounts cell).bind fun n =>
  (divRoundUp n v.blockSize).bind fun nb =>
  (forLoop 0 nb (fun block => v.occupancyBlock (sched cell block) cell n block)
    (List.replicate (v.blockSize + 1) 0)).bind fun la =>
  some (List.zipWith (· + ·) counts la)

/-- `get_wave_occupancy_counts`, cellwise_pair_list_block.cpp:200-293. -/
def BlockView.occupancy (v : BlockView) (cells : Sched) (sched : Nat → Nat → Sched) :
    Option (List Nat) :=
  runItems (fun cell => v.occupancyCell sched cell) (cells.order (List.range v.cellCount))
    (List.replicate (v.blockSize + 1) 0)

/-- `get_mean_wave_occupancy`, cellwise_pair_list_block.cpp:295-313. `none`: division by zero.
Simplification: the result is exact. -/
def meanOccupancy (counts : List Nat) : Option Rat :=
  let blockSize : Int := (counts.length : Int) - 1
  let unscaled : Nat := (counts.zipIdx.map fun x => x.2 * x.1).sum
  let num := counts.sum
  if num = 0 then some 0
  else if blockSize * num = 0 then none
  else some ((unscaled : Rat) / ((blockSize * num : Int) : Rat))

/-- `get_global_wave_occupancy_counts`, cellwise_pair_list_block.cpp:315-347, on all ranks:
`locals` are the local counts of the ranks, the result is the vector of each rank. `none`: an
assertion fails on some rank. `MPI_Reduce` adds the elements of the vectors. -/
def globalOccupancy (locals : List (List Nat)) : Option (List (List Nat)) :=
  (rd locals 0).bind fun l0 =>
  if ∀ l ∈ locals, l.length = l0.length then
    some (locals.zipIdx.map fun x => if x.2 = 0 then
      locals.foldl (List.zipWith (· + ·)) (List.replicate l0.length 0) else [])
  else none

end NP
