import Verif.Basics.Model
import Mathlib.Algebra.Order.Group.Nat

/-!
# Model: particle loop iteration sets, loop indices and the submit/wait protocol

Models `src/loop/particle_loop_iteration_set.cpp`,
`include/neso_particles/loop/particle_loop_iteration_set.hpp`,
`src/loop/particle_loop_base.cpp`, `src/loop/particle_loop_utility.cpp`,
`include/neso_particles/loop/particle_loop.hpp`,
`include/neso_particles/loop/particle_loop_reduction.hpp`,
`include/neso_particles/particle_sub_group/particle_loop_sub_group.hpp` and
`include/neso_particles/loop/particle_loop_index.hpp`.

The host and device copies of the per cell particle counts are one list (that they
agree is part of the group invariant, see C18).
-/

set_option autoImplicit false

namespace NP

/-- `ParticleLoopBlockHost` with its `ParticleLoopBlockDevice` and `nd_range<2>`
`({globalCells, globalLayers}, {1, localSize})`,
`particle_loop_iteration_set.hpp:61-66,159-177`. -/
structure LoopBlock where
  offsetCell : Nat
  offsetLayer : Nat
  stride : Nat
  check : Bool
  localSize : Nat
  globalCells : Nat
  globalLayers : Nat
deriving DecidableEq, Repr

/-- `get_global_size`, `particle_loop_iteration_set.cpp:76-85`. -/
def loopGlobalSize (N localSize : Nat) : Option Nat :=
  if localSize = 0 then none
  else some ((N / localSize + (if N % localSize = 0 then 0 else 1)) * localSize)

/-- `get_local_size`, `particle_loop_iteration_set.cpp:87-105`. `none`: an assertion
fails or there is a division by zero (`stride == 0`). -/
def loopLocalSize (localMemSize localSize numBytesLocal stride : Nat) : Option Nat :=
  let perBlock := stride * numBytesLocal
  if ¬ perBlock ≤ localMemSize then none else
  (if numBytesLocal = 0 then some localSize
    else if perBlock = 0 then none else some (localMemSize / perBlock)).bind fun maxBlocks =>
  (getPrevPowerOfTwo maxBlocks).bind fun p =>
  let ls := min p localSize
  if ls * stride * numBytesLocal ≤ localMemSize then some ls else none

/-- First loop of `get_generic`, `particle_loop_iteration_set.cpp:137-149`: the range
of cells in `[cellStart, cellEnd)` from the first to the last occupied one. -/
def occupiedRange (npart : List Nat) (cellStart cellEnd : Nat) : Option (Nat × Nat) :=
  forLoop cellStart cellEnd (fun c s =>
    (rd npart c).bind fun occ =>
      if occ ≠ 0 then some (min s.1 c, max s.2 (c + 1)) else some s) (npart.length, 0)

/-- `std::numeric_limits<std::size_t>::max()`. -/
def sizeMax : Nat := 2 ^ 64 - 1

/-- Second loop of `get_generic`, `particle_loop_iteration_set.cpp:153-160`: least and
greatest occupancy. -/
def minMaxOccupancy (npart : List Nat) (startv endv : Nat) : Option (Nat × Nat) :=
  forLoop startv endv (fun c s =>
    (rd npart c).bind fun occ => some (min s.1 occ, max s.2 occ)) (sizeMax, 1)

/-- Inner loop of the peel loop, `particle_loop_iteration_set.cpp:195-201`. -/
def binMaxOcc (npart : List Nat) (start stop : Nat) : Option Nat :=
  forLoop start stop (fun c s => (rd npart c).bind fun occ => some (max s occ)) 0

/-- One iteration of the peel loop, `particle_loop_iteration_set.cpp:189-215`.
`none`: out of bounds or `cell_max_occ -= min_occupancy` wraps around. -/
def peelBlock (npart : List Nat) (startv rangeCells nbin minOcc localSize stride binx : Nat) :
    Option (List LoopBlock) :=
  (getDecomp1d nbin rangeCells binx).bind fun r =>
  let start := r.1 + startv
  let stop := r.2 + startv
  (binMaxOcc npart start stop).bind fun maxOcc =>
  if maxOcc < minOcc then none else
  let rest := maxOcc - minOcc
  if rest > 0 then
    (getNextMultiple rest stride).bind fun m =>
    (loopGlobalSize (m / stride) localSize).bind fun g =>
    some [⟨start, minOcc / stride, stride, true, localSize, stop - start, g⟩]
  else some []

/-- `get_generic`, `particle_loop_iteration_set.cpp:125-218`.  Not modelled:
`iteration_set_size` (used for profiling only) and the device limits checked by
`validate_nd_range`. -/
def getGeneric (localMemSize : Nat) (npart : List Nat) (cellStart cellEnd nbin localSize
    numBytesLocal stride : Nat) : Option (List LoopBlock) :=
  (loopLocalSize localMemSize localSize numBytesLocal stride).bind fun localSize =>
  if localSize = 0 then none else
  (occupiedRange npart cellStart cellEnd).bind fun r =>
  (minMaxOccupancy npart r.1 r.2).bind fun mm =>
  (getPrevPowerOfTwo mm.2).bind fun pp =>
  let lower := 2 * pp
  let localSize := if lower < localSize then lower else localSize
  if r.2 ≤ r.1 then some [] else
  let rangeCells := r.2 - r.1
  let nbin := min nbin rangeCells
  if localSize * stride = 0 then none else
  let minOcc := mm.1 / (localSize * stride) * (localSize * stride)
  let main := if minOcc > 0 then
    [⟨r.1, 0, stride, false, localSize, rangeCells, minOcc / stride⟩] else []
  (collectM (peelBlock npart r.1 rangeCells nbin minOcc localSize stride)
    (List.range nbin)).bind fun peel => some (main ++ peel)

/-- `get_all_cells`, `particle_loop_iteration_set.cpp:220-227`. -/
def getAllCells (localMemSize : Nat) (npart : List Nat) (nbin localSize numBytesLocal
    stride : Nat) : Option (List LoopBlock) :=
  getGeneric localMemSize npart 0 npart.length nbin localSize numBytesLocal stride

/-- `get_single_cell`, `particle_loop_iteration_set.cpp:229-235`. -/
def getSingleCell (localMemSize : Nat) (npart : List Nat) (cell localSize numBytesLocal
    stride : Nat) : Option (List LoopBlock) :=
  getGeneric localMemSize npart cell (cell + 1) 1 localSize numBytesLocal stride

/-- `get_range_cell`, `particle_loop_iteration_set.cpp:237-248`; `loopNbin` is the
parameter `LOOP_NBIN`. -/
def getRangeCell (localMemSize loopNbin : Nat) (npart : List Nat) (cellStart cellEnd localSize
    numBytesLocal stride : Nat) : Option (List LoopBlock) :=
  getGeneric localMemSize npart cellStart cellEnd loopNbin localSize numBytesLocal stride

/-! ## Which particles a launch visits -/

/-- The work items `(get_global_id(0), get_global_id(1))` of a block.  `none`: the
`nd_range` is malformed (the local range must be positive and divide the global
range). -/
def blockItems (b : LoopBlock) : Option (List (Nat × Nat)) :=
  if b.localSize = 0 ∨ b.globalLayers % b.localSize ≠ 0 then none
  else some (pairs b.globalCells b.globalLayers)

/-- `work_item_required`, `particle_loop_iteration_set.hpp:105-108`. -/
def workItemRequired (npart : List Nat) (cell layer : Nat) : Option Bool :=
  (rd npart cell).bind fun n => some (layer < n)

/-- Body of the kernels of `ParticleLoop::submit`, `particle_loop.hpp:227-285`, up to
the call of the user kernel: the `(cell, layer)` the user kernel is called with.
`get_cell_layer` is `particle_loop_iteration_set.hpp:92-97`.  The bounds check is
skipped if the block says it is not required. -/
def itemVisit (npart : List Nat) (b : LoopBlock) (g : Nat × Nat) : Option (List (Nat × Nat)) :=
  let cell := g.1 + b.offsetCell
  let layer := g.2 + b.offsetLayer
  if b.check then
    (workItemRequired npart cell layer).bind fun ok =>
      some (if ok then [(cell, layer)] else [])
  else some [(cell, layer)]

/-- All visits of one block of `ParticleLoop::submit`. -/
def blockVisits (npart : List Nat) (b : LoopBlock) : Option (List (Nat × Nat)) :=
  (blockItems b).bind (collectM (itemVisit npart b))

/-- Body of the kernel of `ParticleLoopReduction::submit`,
`particle_loop_reduction.hpp:104-134`; `get_interlaced_cell_layer` is
`particle_loop_iteration_set.hpp:75-84` with
`get_group_id(1) = get_global_id(1) / local_range`,
`get_local_id(1) = get_global_id(1) % local_range`. -/
def itemVisitStrided (npart : List Nat) (b : LoopBlock) (g : Nat × Nat) :
    Option (List (Nat × Nat)) :=
  collectM (fun stridex =>
    let cell := g.1 + b.offsetCell
    let layer := b.offsetLayer * b.stride + (g.2 / b.localSize) * b.stride * b.localSize
      + stridex * b.localSize + g.2 % b.localSize
    (workItemRequired npart cell layer).bind fun ok =>
      some (if ok then [(cell, layer)] else [])) (List.range b.stride)

/-- All visits of one block of `ParticleLoopReduction::submit`. -/
def blockVisitsStrided (npart : List Nat) (b : LoopBlock) : Option (List (Nat × Nat)) :=
  (blockItems b).bind (collectM (itemVisitStrided npart b))

/-- `determine_iteration_set`, `particle_loop_base.cpp:7-32`: (start, end, all_cells).
`none`: assertion on line 29. -/
def determineIterationSet (ncell : Nat) (cellStart cellEnd : Option Int) :
    Option (Int × Int × Bool) :=
  match cellStart, cellEnd with
  | none, none => some (0, ncell, true)
  | some s, none => some (s, s + 1, false)
  | some s, some e => some (s, e, s == 0 && e == ncell)
  | none, some _ => none

/-- `iteration_set_is_empty`, `particle_loop_base.cpp:58-81`.  `hasGroup` is
`particle_group_ptr != nullptr`, `npartLocal` is `get_npart_local()` of the group. -/
def iterationSetIsEmpty (npartLb : List Nat) (hasGroup : Bool) (npartLocal : Nat)
    (cellStart cellEnd : Option Int) : Option Bool :=
  (determineIterationSet npartLb.length cellStart cellEnd).bind fun r =>
  if ¬ r.2.2 then
    if -1 < r.1 ∧ r.1 ≤ npartLb.length ∧ -1 < r.2.1 ∧ r.2.1 ≤ npartLb.length then
      (forLoop r.1.toNat r.2.1.toNat (fun c s =>
        (rd npartLb c).bind fun n => some (max s n)) 0).bind fun m => some (m == 0)
    else none
  else if hasGroup then some (npartLocal == 0)
  else some false

/-- Parameters of the device that influence a launch. -/
structure LoopParams where
  /-- `device_limits.local_mem_size` -/
  localMemSize : Nat
  /-- parameter `LOOP_NBIN` -/
  nbin : Nat
  /-- local size returned by `get_local_size_args` -/
  localSize : Nat

/-- The part of `prepare_submit` that selects the iteration set,
`particle_loop.hpp:151-199` and `particle_loop_sub_group.hpp:77-140` (`stride` is
`iteration_set_stride`). `npartLb` are the loop bounds: the counts of the group, or
of the selection of a sub group. -/
def submitBlocks (P : LoopParams) (npartLb : List Nat) (hasGroup : Bool) (npartLocal : Nat)
    (stride : Nat) (cellStart cellEnd : Option Int) : Option (List LoopBlock) :=
  (determineIterationSet npartLb.length cellStart cellEnd).bind fun r =>
  (iterationSetIsEmpty npartLb hasGroup npartLocal cellStart cellEnd).bind fun empty =>
  if empty then some []
  else if r.2.2 then getAllCells P.localMemSize npartLb P.nbin P.localSize 0 stride
  else getRangeCell P.localMemSize P.nbin npartLb r.1.toNat r.2.1.toNat P.localSize 0 stride

/-- Every `(cell, loop layer)` the user kernel of a `ParticleLoop` (or
`ParticleLoopSubGroup`) is called for by one `submit`. -/
def submitVisits (P : LoopParams) (npartLb : List Nat) (hasGroup : Bool) (npartLocal : Nat)
    (cellStart cellEnd : Option Int) : Option (List (Nat × Nat)) :=
  (submitBlocks P npartLb hasGroup npartLocal 1 cellStart cellEnd).bind
    (collectM (blockVisits npartLb))

/-- Every `(cell, loop layer)` the user kernel of a `ParticleLoopReduction` is called
for by one `submit`, `particle_loop_reduction.hpp:82-137`; `stride` is
`NESO_PARTICLES_LOOP_STRIDE`. -/
def submitVisitsReduction (P : LoopParams) (npartLb : List Nat) (hasGroup : Bool)
    (npartLocal : Nat) (stride : Nat) (cellStart cellEnd : Option Int) :
    Option (List (Nat × Nat)) :=
  (submitBlocks P npartLb hasGroup npartLocal stride cellStart cellEnd).bind
    (collectM (blockVisitsStrided npartLb))

/-! ## Loop indices -/

/-- Exclusive sum of the per cell counts on the host,
`ParticleGroup::recompute_npart_cell_es`, `particle_group.hpp:359-369`,
`ParticleDatT::set_npart_cells_*`, and `sub_group_selector.cpp:98-103`. -/
def npartCellEs (npart : List Nat) : List Nat := exclusiveFrom 0 npart

/-- `get_local_linear_index`, `particle_loop_index.hpp:47-49`. -/
def localLinearIndex (npart : List Nat) (cell layer : Nat) : Option Nat :=
  (rd (npartCellEs npart) cell).bind fun e => some (e + layer)

/-- `get_loop_linear_index`, `particle_loop_index.hpp:53-58`; `npartLb` are the counts
of the loop bounds. The subtraction is done in `INT`. -/
def loopLinearIndex (npartLb : List Nat) (startingCell cell loopLayer : Nat) : Option Int :=
  (rd (npartCellEs npartLb) cell).bind fun e =>
  (rd (npartCellEs npartLb) startingCell).bind fun e0 =>
    some (((e + loopLayer : Nat) : Int) - (e0 : Int))

/-- `get_sub_linear_index`, `particle_loop_index.hpp:64-66`. -/
def subLinearIndex (npartLb : List Nat) (cell loopLayer : Nat) : Option Nat :=
  (rd (npartCellEs npartLb) cell).bind fun e => some (e + loopLayer)

/-- `get_loop_npart`, `particle_loop_utility.cpp:5-31`: number of particles the loop
visits. `total` is `get_npart_local()`. -/
def getLoopNpart (npartLb : List Nat) (total : Nat) (cellStart cellEnd : Nat) (allCells : Bool) :
    Option Nat :=
  if allCells then some total
  else forLoop cellStart cellEnd (fun c s => (rd npartLb c).bind fun n => some (s + n)) 0

/-! ## Submit / wait -/

/-- Observable actions of a loop. -/
inductive LoopEvent where
  /-- pre loop hooks of the arguments ran -/
  | pre
  /-- kernels of the loop were launched (with their number) -/
  | launch (n : Nat)
  /-- `event_stack.wait()` returned: all launched kernels are complete -/
  | complete
  /-- post loop hooks of the arguments ran -/
  | post
deriving DecidableEq, Repr

/-- State of a loop object: `loop_running`, the number of kernels on `event_stack`
and everything that happened so far. -/
structure LoopState where
  running : Bool
  pending : Nat
  trace : List LoopEvent
deriving DecidableEq, Repr

/-- A loop object just after construction (`particle_loop_base.hpp`: `loop_running`
is initialised to false). -/
def LoopState.init : LoopState := ⟨false, 0, []⟩

/-- Calls on a loop. `cellwise` is `cell_start != nullopt`; `kernels` is the number of
blocks the iteration set has at the time of the call (0 if it is empty). -/
inductive LoopCall where
  | submit (cellwise : Bool) (kernels : Nat)
  | wait
  | execute (cellwise : Bool) (kernels : Nat)
deriving DecidableEq, Repr

/-- `ParticleLoop::submit`, `particle_loop.hpp:151-175,216-286` (the same protocol in
`particle_loop_sub_group.hpp:77-116,157-238`).  `none`: the assertion that the loop
is not running. -/
def loopSubmit (cellwise : Bool) (kernels : Nat) (s : LoopState) : Option LoopState :=
  if s.running ∧ ¬ cellwise then none
  else some ⟨true, s.pending + kernels, s.trace ++ [.pre] ++
    (if kernels = 0 then [] else [.launch kernels])⟩

/-- `ParticleLoop::wait`, `particle_loop.hpp:292-308`.  `none`: the assertion that the
loop is running. -/
def loopWait (s : LoopState) : Option LoopState :=
  if ¬ s.running then none
  else some ⟨false, 0, s.trace ++ [.complete, .post]⟩

/-- One call; `execute` is `particle_loop.hpp:324-332`. -/
def loopCall (c : LoopCall) (s : LoopState) : Option LoopState :=
  match c with
  | .submit cw k => loopSubmit cw k s
  | .wait => loopWait s
  | .execute cw k => (loopSubmit cw k s).bind loopWait

/-- A history of calls on a loop. -/
def loopRun (cs : List LoopCall) (s : LoopState) : Option LoopState := runItems loopCall cs s

end NP
