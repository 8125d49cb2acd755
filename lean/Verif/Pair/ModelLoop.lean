import Verif.Common.Kernel
import Verif.Group.Model

/-!
# Model: pair loops

Models `include/neso_particles/pair_loop/cellwise_pair_list.hpp`,
`include/neso_particles/pair_loop/cellwise_pair_list_block.hpp`,
`include/neso_particles/pair_loop/particle_pair_loop_cellwise_pair_list.hpp` and
`include/neso_particles/pair_loop/particle_pair_loop_cellwise_pair_list_block.hpp`.

The outcome of a loop is the sequence of kernel calls. Kernels do not change pair lists. Integer
overflow is not modelled.
-/

set_option autoImplicit false

namespace NP

/-- One call of the user kernel of a pair loop: the pair list, the cell, the block (0 for lists
without blocks), the wave and the position of the pair are recorded with what the kernel can
observe, namely the cell, the two layers and the pair index. -/
structure PairCall where
  list : Nat
  cell : Nat
  block : Nat
  wave : Nat
  pos : Nat
  a : Int
  b : Int
  index : Int
deriving DecidableEq

/-- An order in which the calls of work groups that are not synchronised with each other may
happen: the calls of one group stay in their order. -/
inductive Interleave {α : Type} : List (List α) → List α → Prop
  | done {gs : List (List α)} (h : ∀ g ∈ gs, g = []) : Interleave gs []
  | step {l₁ l₂ : List (List α)} {g t : List α} {x : α} (h : Interleave (l₁ ++ g :: l₂) t) :
      Interleave (l₁ ++ (x :: g) :: l₂) (x :: t)

/-! ## Lists of waves -/

/-- `CellwisePairListDevice`, cellwise_pair_list.hpp:20-32. The element
`d_pair_list[cell][column][row]` has the address `⟨sym, cell, column, row⟩` in `mem`. The host
pointers are not used by the loop. -/
structure PairView where
  waveCount : List Nat
  cellCount : Nat
  waveOffsets : List Nat
  mem : Mem
  sym : Nat
  pairCounts : List Nat
  pairCountsEs : List Int
  maxPairCount : Int
  maxWaveCount : Int
  pairCount : Int

/-- The pair `pos` of a wave: `get_pair_linear_index`, `get_particle_index_i` and
`get_particle_index_j`, cellwise_pair_list.hpp:66-94, as used in
particle_pair_loop_cellwise_pair_list.hpp:174-200. -/
def PairView.call (v : PairView) (list : Nat) (offset : Int) (cell wave pos : Nat) :
    Option PairCall :=
  (rd v.pairCountsEs (wave * v.cellCount + cell)).bind fun es =>
  (rd v.waveOffsets (wave * v.cellCount + cell)).bind fun o =>
  (v.mem ⟨v.sym, cell, 0, o + pos⟩).bind fun a =>
  (v.mem ⟨v.sym, cell, 1, o + pos⟩).bind fun b =>
  some ⟨list, cell, 0, wave, pos, a, b, offset + (es + pos)⟩

/-- The calls of one work item for one wave, particle_pair_loop_cellwise_pair_list.hpp:160-220 and
262-308. -/
def PairView.itemCalls (v : PairView) (list : Nat) (offset : Int) (localSize cell wave lane : Nat) :
    Option (List PairCall) :=
  (rd v.waveCount cell).bind fun nw =>
  if wave < nw then
    (rd v.pairCounts (wave * v.cellCount + cell)).bind fun n =>
    (strided lane n localSize).mapM fun pos => v.call list offset cell wave pos
  else some []

/-- The offsets of the pair lists, particle_pair_loop_cellwise_pair_list.hpp:114-119. -/
def listOffsets : Int → List Int → List Int
  | _, [] => []
  | s, n :: ns => s :: listOffsets (s + n) ns

/-- The cell range, particle_pair_loop_args.hpp:262-272. -/
def pairLoopRange (cellCount : Nat) (cellStart cellEnd : Option Int) : Int × Int :=
  (cellStart.getD 0, cellEnd.getD cellCount)

/-- The work groups of a launch: cells and pair lists. -/
def pairGroups (start stop nlists : Nat) : List (Nat × Nat) :=
  (List.range' start (stop - start)).flatMap fun c => (List.range nlists).map fun l => (c, l)

/-- `ParticlePairLoopCellwisePairList::submit`,
particle_pair_loop_cellwise_pair_list.hpp:102-321, as the calls of groups that are not synchronised
with each other. On a CPU, or if there is one wave, there is a launch for every wave and the host
waits for each of them: these are one sequence of calls. Otherwise the work groups loop over the
waves, with a barrier of the group after each. `sched w c l` is the order of the calls between
two barriers. -/
def pairLoopSubmit (lists : List PairView) (cellCount localSize : Nat) (cpu : Bool)
    (sched : Nat → Nat → Nat → Sched) (cellStart cellEnd : Option Int) :
    Option (List (List PairCall)) :=
  let maxPair : Int := (lists.map (·.maxPairCount)).foldl max 0
  let maxWave : Int := (lists.map (·.maxWaveCount)).foldl max 0
  let offsets := listOffsets 0 (lists.map (·.pairCount))
  let r := pairLoopRange cellCount cellStart cellEnd
  if maxPair > 0 ∧ lists.length > 0 ∧ r.2 - r.1 > 0 then
    (index r.1).bind fun start => (index r.2).bind fun stop =>
    let groups := pairGroups start stop lists.length
    if cpu = true ∨ maxWave = 1 then
      ((List.range maxWave.toNat).mapM fun w =>
        (collectM (fun (g : Nat × Nat) =>
          (rd lists g.2).bind fun v => (rd offsets g.2).bind fun o =>
          collectM (fun lane => v.itemCalls g.2 o localSize g.1 w lane) (List.range localSize))
          groups).map fun calls => (sched w 0 0).order calls).map fun l => [l.flatten]
    else
      groups.mapM fun g =>
        (rd lists g.2).bind fun v => (rd offsets g.2).bind fun o =>
        (rd v.waveCount g.1).bind fun nw =>
        ((List.range nw).mapM fun w =>
          (collectM (fun lane => v.itemCalls g.2 o localSize g.1 w lane)
            (List.range localSize)).map fun calls => (sched w g.1 g.2).order calls).map List.flatten
  else some []

/-! ## Lists of blocks -/

/-- `CellwisePairListBlockDevice`, cellwise_pair_list_block.hpp:15-55. -/
structure BlockView where
  pairCount : Nat
  blockSize : Nat
  cellCount : Nat
  maxWaveCount : Nat
  waveCounts : List Nat
  pairCounts : List Nat
  pairCountsEs : List Nat
  pairList : List Int

/-- `get_pair_index_i`, `get_pair_index_j`, `get_pair_wave` and `get_pair_linear_index`,
cellwise_pair_list_block.hpp:34-54. -/
def BlockView.read (v : BlockView) (cell pos : Nat) : Option (Int × Int × Int × Nat) :=
  (rd v.pairCountsEs cell).bind fun es =>
  (rd v.pairList (0 + (es + pos))).bind fun i =>
  (rd v.pairList (v.pairCount + (es + pos))).bind fun j =>
  (rd v.pairList (v.pairCount * 2 + (es + pos))).bind fun w =>
  some (i, j, w, es + pos)

/-- The calls of one work item for one wave of one block,
particle_pair_loop_cellwise_pair_list_block.hpp:187-249 and 289-346. -/
def BlockView.itemCalls (v : BlockView) (list : Nat) (offset : Int) (blockSize cell block wave
    lane : Nat) : Option (List PairCall) :=
  (rd v.pairCounts cell).bind fun n =>
  let pos := lane + block * blockSize
  if pos < n then
    (v.read cell pos).bind fun r =>
    if (wave : Int) = r.2.2.1 then
      some [⟨list, cell, block, wave, pos, r.1, r.2.1, r.2.2.2 + offset⟩]
    else some []
  else some []

/-- The calls of one work group. `waves block` is the number of waves that are run in a block. -/
def BlockView.groupCalls (v : BlockView) (sched : Nat → Nat → Sched) (list : Nat) (offset : Int)
    (localSize blockSize cell : Nat) (waves : Nat → Option Nat) : Option (List PairCall) :=
  (rd v.pairCounts cell).bind fun n =>
  ((List.range ((n + localSize - 1) / localSize)).mapM fun block =>
    (waves block).bind fun nw =>
    ((List.range nw).mapM fun w =>
      (collectM (fun lane => v.itemCalls list offset blockSize cell block w lane)
        (List.range localSize)).map fun calls => (sched block w).order calls).map
      List.flatten).map List.flatten

/-- `ParticlePairLoopCellwisePairListBlock::submit`,
particle_pair_loop_cellwise_pair_list_block.hpp:109-351. `block_size` is that of the last list. On
a CPU all blocks run `max_wave_count` waves, otherwise the number of waves of the block. -/
def blockLoopSubmit (lists : List BlockView) (cellCount localSize : Nat) (cpu : Bool)
    (sched : Nat → Nat → Nat → Nat → Sched) (cellStart cellEnd : Option Int) :
    Option (List (List PairCall)) :=
  let blockSize := (lists.getLast?.map (·.blockSize)).getD 0
  let maxWave : Nat := (lists.map (·.maxWaveCount)).foldl max 0
  let offsets := listOffsets 0 (lists.map fun v => (v.pairCount : Int))
  let r := pairLoopRange cellCount cellStart cellEnd
  if blockSize = 0 ∨ localSize = blockSize then
    if blockSize > 0 ∧ lists.length > 0 ∧ r.2 - r.1 > 0 ∧
        (lists.map (·.pairCount)).sum > 0 then
      (index r.1).bind fun start => (index r.2).bind fun stop =>
      (pairGroups start stop lists.length).mapM fun g =>
        (rd lists g.2).bind fun v => (rd offsets g.2).bind fun o =>
        v.groupCalls (sched g.1 g.2) g.2 o localSize blockSize g.1 fun block =>
          if cpu = true then some maxWave else rd v.waveCounts (block * v.cellCount + g.1)
    else some []
  else none

end NP
