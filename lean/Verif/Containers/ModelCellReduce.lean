import Verif.Algo.ModelReduce

/-!
# Model: reduction access to a `CellDatConst` in a particle loop

Models `include/neso_particles/loop/particle_loop_reduction.hpp`,
`include/neso_particles/particle_sub_group/particle_loop_sub_group_reduction.hpp` and the parts of
`include/neso_particles/containers/cell_dat_const.hpp` for `Access::reduce`.

Work items of a work group run in any order between two barriers. The atomic updates of all work groups
of all kernels reach the `CellDatConst` in any order; work groups do not read it. Not modelled: the self
test of `pre_loop`, other arguments of the loop.
-/

set_option autoImplicit false

namespace NP

/-- What a reduction loop depends on: `NESO_PARTICLES_LOOP_STRIDE`, the uninitialised local memory of
each work group, the order of the work items in each phase between barriers and the order of the
atomic updates. -/
structure CellReduceEnv (T : Type) where
  P : LoopParams
  stride : Nat
  mem : LoopBlock → Nat × Nat → Fresh T
  initOrder : LoopBlock → Nat × Nat → Sched
  kernelOrder : LoopBlock → Nat × Nat → Sched
  treeOrder : LoopBlock → Nat × Nat → Nat → Nat → Sched
  atomics : Sched

/-- `reduction_initialise` by work item `w` of `L`, cell_dat_const.hpp:373-386. -/
def redInitItem {T : Type} (e : T) (num L w : Nat) (m : List T) : Option (List T) :=
  forLoop 0 num (fun ix m => st m (ix * L + w) e) m

/-- `Reduction::combine(row, col, value)`, cell_dat_const.hpp:131-138. -/
def redCombine {T : Type} (op : T → T → T) (nrow L w : Nat) (call : Nat × Nat × T) (m : List T) :
    Option (List T) :=
  let component := nrow * call.2.1 + call.1
  let index := component * L + w
  (rd m index).bind fun current => st m index (op current call.2.2)

/-- The kernel calls of one work item, particle_loop_reduction.hpp:113-130 and
particle_loop_sub_group_reduction.hpp:107-127: `calls c l` are the calls of `combine` that the user's
kernel makes for the particle at layer `l` of cell `c`. -/
def redKernelItem {T : Type} (op : T → T → T) (counts : List Nat) (par : Parent)
    (calls : Nat → Nat → List (Nat × Nat × T)) (nrow : Nat) (b : LoopBlock) (g : Nat × Nat) (w : Nat)
    (m : List T) : Option (List T) :=
  (itemVisitStrided counts b (g.1, g.2 * b.localSize + w)).bind fun visits =>
  runItems (fun v m => (par.layerAt v.1 v.2).bind fun l =>
    runItems (redCombine op nrow b.localSize w) (calls v.1 l) m) visits m

/-- The values of `s` in `for (unsigned int s = h; s > 0; s >>= 1)`, cell_dat_const.hpp:406; an
`unsigned int` has at most 32 bits. -/
def redHalvings : Nat → Nat → List Nat
  | 0, _ => []
  | fuel + 1, s => if s > 0 then s :: redHalvings fuel (s / 2) else []

/-- One step of the tree by work item `w`, cell_dat_const.hpp:408-412. -/
def redTreeItem {T : Type} (op : T → T → T) (offset s w : Nat) (m : List T) : Option (List T) :=
  if w < s then
    (rd m (w + offset)).bind fun current =>
    (rd m (w + offset + s)).bind fun x => st m (w + offset) (op current x)
  else some m

/-- `reduction_finalise` of a work group, cell_dat_const.hpp:392-424: the atomic updates that work item
0 makes, as index of the entry and value. -/
def redFinalise {T : Type} (op : T → T → T) (order : Nat → Nat → Sched) (num L cell : Nat) (m : List T) :
    Option (List T × List (Nat × T)) :=
  forLoop 0 num (fun ex s =>
    let offset := ex * L
    (runItems (fun h m => runItems (redTreeItem op offset h) ((order ex h).order (List.range L)) m)
      (redHalvings 32 (L / 2)) s.1).bind fun m =>
    (rd m offset).bind fun value =>
    some (m, s.2 ++ [(cell * num + ex, value)])) (m, [])

/-- A work group, particle_loop_reduction.hpp:104-134 and particle_loop_sub_group_reduction.hpp:98-131:
group `g.2` in cell `g.1` of the block. The size of the local memory is cell_dat_const.hpp:355. -/
def redGroup {T : Type} (op : T → T → T) (e : T) (env : CellReduceEnv T) (counts : List Nat) (par : Parent)
    (calls : Nat → Nat → List (Nat × Nat × T)) (nrow ncol : Nat) (b : LoopBlock) (g : Nat × Nat) :
    Option (List (Nat × T)) :=
  let num := nrow * ncol
  (runItems (redInitItem e num b.localSize) ((env.initOrder b g).order (List.range b.localSize))
    ((env.mem b g) (ncol * nrow * env.P.localSize)).val).bind fun m =>
  (runItems (redKernelItem op counts par calls nrow b g)
    ((env.kernelOrder b g).order (List.range b.localSize)) m).bind fun m =>
  (redFinalise op (env.treeOrder b g) num b.localSize (g.1 + b.offsetCell) m).bind fun s => some s.2

/-- The work groups of a block: cells and groups of layers of its `nd_range`. -/
def redGroups (b : LoopBlock) : Option (List (Nat × Nat)) :=
  if b.localSize = 0 ∨ b.globalLayers % b.localSize ≠ 0 then none
  else some (pairs b.globalCells (b.globalLayers / b.localSize))

/-- `Kernel::atomic_reduce`, device_functions.hpp:608-618. -/
def redAtomic {T : Type} (op : T → T → T) (u : Nat × T) (out : List T) : Option (List T) :=
  (rd out u.1).bind fun current => st out u.1 (op current u.2)

/-- `particle_loop(kernel, Access::reduce(cell_dat_const, op))->execute(cell_start, cell_end)`,
particle_loop_reduction.hpp:82-137 and particle_loop_sub_group_reduction.hpp:74-134, with the
assertion of `pre_loop`, cell_dat_const.hpp:437. -/
def cellReduceLoop {T : Type} (op : T → T → T) (e : T) (env : CellReduceEnv T) (npart : List Nat)
    (par : Parent) (calls : Nat → Nat → List (Nat × Nat × T)) (cs ce : Option Int) (out : CellConst T) :
    Option (CellConst T) :=
  if isPowerOfTwo env.P.localSize then
    (submitBlocks env.P (par.counts npart) true (par.total npart) env.stride cs ce).bind fun blocks =>
    (collectM (fun b => (redGroups b).bind
      (collectM (redGroup op e env (par.dCounts npart) par calls out.nrow out.ncol b))) blocks).bind
      fun updates =>
    (runItems (redAtomic op) (env.atomics.order updates) out.data).bind fun data =>
    some { out with data := data }
  else none

end NP
