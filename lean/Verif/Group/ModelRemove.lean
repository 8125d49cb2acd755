import Verif.Group.Model

/-!
# Model: removing particles

Models `include/neso_particles/cell_dat_compression.hpp` (`LayerCompressor`),
`ParticleGroup::remove_particles` and `particle_remover.hpp`.
-/

set_option autoImplicit false

namespace NP

/-- What the compression kernels compute: `compress_npart`, the three arrays of cells,
old layers and new layers, and the new particle count of each cell. -/
structure Plan where
  n : Nat
  cells : List Int
  layersOld : List Int
  layersNew : List Int
  npartNew : List Nat

/-- The `(cell, layer)` visited by a kernel over `iteration_set->get_all_cells(nbin)`
that always calls `work_item_required`, e.g. `cell_dat_compression.hpp:212-228`.  The
host and device counts of the iteration set are set from the same array. -/
def allVisits (e : Env) (npart : List Nat) : Option (List (Nat × Nat)) :=
  (getAllCells e.loop.localMemSize npart e.loop.nbin e.loop.localSize 0 1).bind
    (collectM fun b => blockVisits npart { b with check := true })

/-! ## Dense -/

/-- Kernel that marks the listed particles, `cell_dat_compression.hpp:169-181`. -/
def markStep (ncell cellSym : Nat) (cells layers : List Int) (i : Nat) (m : Mem) : Option Mem :=
  (rd cells i).bind fun cell => (rd layers i).bind fun layer =>
    if (-1 < cell ∧ cell < ncell) ∧ -1 < layer then
      mst m ⟨cellSym, cell.toNat, 0, layer.toNat⟩ (-1)
    else some m

/-- Kernel that computes the masks, `cell_dat_compression.hpp:209-228`. -/
def maskStep (cellSym : Nat) (es : List Nat) (m : Mem) (p : Nat × Nat) (masks : List Nat) :
    Option (List Nat) :=
  (rd es p.1).bind fun off => (m ⟨cellSym, p.1, 0, p.2⟩).bind fun v =>
    st masks (off + p.2) (if v > -1 then 0 else 1)

/-- Kernel that computes the new occupancies, `cell_dat_compression.hpp:267-281`;
updates `(k_npart_cell_new, k_npart_to_fill)`.  The subtraction is in `int`; a negative
result is used as an index. -/
def newCountStep (es p1 old masksEs : List Nat) (c : Nat) (s : List Nat × List Nat) :
    Option (List Nat × List Nat) :=
  (rd es c).bind fun off => (rd p1 c).bind fun n1 =>
  (index ((n1 : Int) - 1)).bind fun last =>
  (rd masksEs (off + last)).bind fun removed => (rd old c).bind fun o =>
  (index ((o : Int) - removed)).bind fun new =>
  (st s.1 c new).bind fun s1 => (rd masksEs (off + new)).bind fun tf =>
  (st s.2 c tf).bind fun s2 => some (s1, s2)

/-- State written by the last kernel: cells, old layers and new layers. -/
abbrev Arrays := List Int × List Int × List Int

/-- Kernel that computes the moves, `cell_dat_compression.hpp:291-324`. -/
def moveStep (es masks masksEs new toFill toFillEs : List Nat) (p : Nat × Nat) (a : Arrays) :
    Option Arrays :=
  (rd es p.1).bind fun off =>
  (rd masks (off + p.2)).bind fun mask => (rd new p.1).bind fun nw =>
  if mask ≠ 0 ∧ p.2 < nw then
    (rd toFillEs p.1).bind fun fe => (rd masksEs (off + p.2)).bind fun me =>
    (st a.1 (fe + me) (p.1 : Int)).bind fun c =>
    (st a.2.2 (fe + me) (p.2 : Int)).bind fun ln => some (c, a.2.1, ln)
  else if mask = 0 ∧ p.2 ≥ nw then
    (rd toFillEs p.1).bind fun fe => (rd masksEs (off + p.2)).bind fun me =>
    (rd toFill p.1).bind fun tf =>
    (index ((fe : Int) + p.2 - nw - ((me : Int) - tf))).bind fun ix =>
    (st a.2.1 ix (p.2 : Int)).bind fun lo => some (a.1, lo, a.2.2)
  else some a

/-- `compute_remove_compress_indicies_dense`, `cell_dat_compression.hpp:97-340`. -/
def denseIndices (e : Env) (ncell cellSym : Nat) (old : List Nat) (npart : Nat)
    (cells layers : List Int) (m : Mem) (a : Arrays) (new : List Nat) : Option (Mem × Plan) :=
  -- occupancies plus one, and their exclusive sum
  (runItems (fun c p1 => (rd old c).bind fun n => st p1 c (n + 1))
    ((e.sched 0).order (List.range ncell)) ((e.freshN 0 (ncell + 1)).1)).bind fun p1 =>
  (st p1 ncell 0).bind fun p1 =>
  (jointExclusiveScanBlocking (e.sched 1) (e.sched 2) (e.sched 3) e.scanLocalSize
    e.computeUnits (ncell + 1) (e.freshN 1) p1 (List.replicate (ncell + 1) 0)).bind fun es =>
  (rd es ncell).bind fun total =>
  -- mark
  (runItems (markStep ncell cellSym cells layers) ((e.sched 4).order (List.range npart)) m).bind
    fun m =>
  -- masks and their sums per cell
  (allVisits e old).bind fun visits =>
  (runItems (maskStep cellSym es m) ((e.sched 5).order visits) ((e.freshN 2 total).1)).bind
    fun masks =>
  (jointExclusiveScanN (e.sched 6) e.scanLocalSize ncell p1 es masks
    (List.replicate total 0)).bind fun masksEs =>
  -- new occupancies
  (runItems (newCountStep es p1 old masksEs) ((e.sched 7).order (List.range ncell))
    (new, (e.freshN 3 (ncell + 1)).1)).bind fun r =>
  (jointExclusiveScanBlocking (e.sched 8) (e.sched 9) (e.sched 10) e.scanLocalSize
    e.computeUnits (ncell + 1) (e.freshN 4) r.2 (List.replicate (ncell + 1) 0)).bind
    fun toFillEs =>
  (rd toFillEs ncell).bind fun n =>
  (runItems (moveStep es masks masksEs r.1 r.2 toFillEs) ((e.sched 11).order visits) a).bind
    fun a => some (m, ⟨n, a.1, a.2.1, a.2.2, r.1⟩)

/-! ## Sparse -/

/-- Kernel that decrements the occupancies and marks, `cell_dat_compression.hpp:411-432`.
There are no bounds checks.  A count below zero is treated as undefined. -/
def sparseMarkStep (cellSym : Nat) (cells layers : List Int) (i : Nat) (s : List Nat × Mem) :
    Option (List Nat × Mem) :=
  (rd cells i).bind fun cell => (rd layers i).bind fun layer =>
  (index cell).bind fun c => (index layer).bind fun k =>
  (rd s.1 c).bind fun v => if v = 0 then none else
  (mst s.2 ⟨cellSym, c, 0, k⟩ (-1)).bind fun m => some (s.1.set c (v - 1), m)

/-- Kernel that counts the holes, `cell_dat_compression.hpp:450-472`; updates the
counters and the offsets. -/
def sparseHoleStep (cells layers : List Int) (new : List Nat) (i : Nat)
    (s : List Nat × List Nat) : Option (List Nat × List Nat) :=
  (rd cells i).bind fun cell => (rd layers i).bind fun layer =>
  (index cell).bind fun c => (rd new c).bind fun nw =>
  if layer < nw then
    (fetchAdd s.1 c).bind fun r => (st s.2 i r.1).bind fun offs => some (r.2, offs)
  else some s

/-- Kernel that stores the holes, `cell_dat_compression.hpp:500-519`. -/
def sparseStoreStep (cells layers : List Int) (new es offs : List Nat) (i : Nat) (a : Arrays) :
    Option Arrays :=
  (rd cells i).bind fun cell => (rd layers i).bind fun layer =>
  (index cell).bind fun c => (rd new c).bind fun nw =>
  if layer < nw then
    (rd offs i).bind fun o => (rd es c).bind fun b =>
    (st a.1 (b + o) cell).bind fun x => (st a.2.1 (b + o) (o : Int)).bind fun y =>
    (st a.2.2 (b + o) layer).bind fun z => some (x, y, z)
  else some a

/-- Kernel that finds particles to move into the holes,
`cell_dat_compression.hpp:551-581`; updates the counters and the search space. It does
not call `work_item_required`. -/
def sparseSearchStep (cellSym : Nat) (m : Mem) (old new es : List Nat) (p : Nat × Nat)
    (s : List Nat × List Nat) : Option (List Nat × List Nat) :=
  (rd new p.1).bind fun nw => (rd old p.1).bind fun o =>
  let layer := p.2 + nw
  if layer < o then
    (m ⟨cellSym, p.1, 0, layer⟩).bind fun v =>
    if v > -1 then
      (fetchAdd s.1 p.1).bind fun r => (rd es p.1).bind fun b =>
      (st s.2 (b + r.1) layer).bind fun sp => some (r.2, sp)
    else some s
  else some s

/-- Kernel that resolves the offsets to layers, `cell_dat_compression.hpp:587-599`. -/
def sparseResolveStep (cells : List Int) (es search : List Nat) (i : Nat) (lo : List Int) :
    Option (List Int) :=
  (rd cells i).bind fun cell => (index cell).bind fun c => (rd lo i).bind fun off =>
  (rd es c).bind fun b => (index ((b : Int) + off)).bind fun ix =>
  (rd search ix).bind fun row => st lo i (row : Int)

/-- The `(cell, layer)` of every work item of a block, whether or not it addresses a
particle: `get_cell_layer` without `work_item_required`. -/
def blockItemsCellLayer (b : LoopBlock) : Option (List (Nat × Nat)) :=
  (blockItems b).bind fun items =>
    some (items.map fun g => (g.1 + b.offsetCell, g.2 + b.offsetLayer))

/-- `compute_remove_compress_indicies_sparse`, `cell_dat_compression.hpp:353-616`. -/
def sparseIndices (e : Env) (ncell cellSym : Nat) (old : List Nat) (npart : Nat)
    (cells layers : List Int) (m : Mem) (a : Arrays) (new : List Nat) : Option (Mem × Plan) :=
  (runItems (fun c new => (rd old c).bind fun n => st new c n)
    ((e.sched 0).order (List.range ncell)) new).bind fun new =>
  (runItems (sparseMarkStep cellSym cells layers) ((e.sched 1).order (List.range npart))
    (new, m)).bind fun r =>
  let new := r.1
  let m := r.2
  (runItems (sparseHoleStep cells layers new) ((e.sched 2).order (List.range npart))
    (List.replicate (ncell + 1) 0, (e.freshN 0 npart).1)).bind fun h =>
  (jointExclusiveScanBlocking (e.sched 3) (e.sched 4) (e.sched 5) e.scanLocalSize
    e.computeUnits (ncell + 1) (e.freshN 1) h.1 (List.replicate (ncell + 1) 0)).bind fun es =>
  (rd es ncell).bind fun n =>
  if ¬ n ≤ npart then none else
  (runItems (sparseStoreStep cells layers new es h.2) ((e.sched 6).order (List.range npart))
    a).bind fun a =>
  (runItems (fun c (ctr : List Nat) => (rd old c).bind fun o => (rd new c).bind fun nw =>
      (index ((o : Int) - nw)).bind fun d => st ctr c d)
    ((e.sched 7).order (List.range ncell)) h.1).bind fun diff =>
  (getAllCells e.loop.localMemSize (diff.take ncell) e.loop.nbin e.loop.localSize 0 1).bind
    fun blocks =>
  (collectM blockItemsCellLayer blocks).bind fun items =>
  (runItems (sparseSearchStep cellSym m old new es) ((e.sched 8).order items)
    (List.replicate (ncell + 1) 0, (e.freshN 2 n).1)).bind fun sr =>
  (runItems (sparseResolveStep a.1 es sr.2) ((e.sched 9).order (List.range n)) a.2.1).bind
    fun lo => some (m, ⟨n, a.1, lo, a.2.2, new⟩)

/-! ## Data movement -/

/-- Every (flattened component, index) pair: the work items of a kernel with range
`(ncomp_total, n)`.  The REAL and INT kernels are one list. -/
def compItems (dats : List Dat) (n : Nat) : List ((Nat × Nat) × Nat) :=
  (flatComps dats).flatMap fun sj => (List.range n).map fun i => (sj, i)

/-- Copy kernels, `cell_dat_compression.hpp:748-782`. -/
def compressStep (p : Plan) (it : (Nat × Nat) × Nat) (m : Mem) : Option Mem :=
  (rd p.cells it.2).bind fun cell =>
  (rd p.layersOld it.2).bind fun lo => (rd p.layersNew it.2).bind fun ln =>
  if cell > -1 then
    (index lo).bind fun lo => (index ln).bind fun ln =>
    (m ⟨it.1.1, cell.toNat, it.1.2, lo⟩).bind fun v =>
      mst m ⟨it.1.1, cell.toNat, it.1.2, ln⟩ v
  else some m

/-- The data movement and bookkeeping part of `LayerCompressor::remove_particles_inner`,
`cell_dat_compression.hpp:720-878` (checks of the test mode not modelled): copies, new
counts on the host and device, trim. -/
def compressorFinish (e : Env) (g : Group) (r : Mem × Plan) : Option Group :=
  let p := r.2
  (runItems (compressStep p) ((e.sched 12).order (compItems g.dats p.n)) r.1).bind fun m =>
  (updDats (setNpartHostDevice g.ncell p.npartNew p.npartNew) { g with mem := m }).bind fun g =>
  updDats (trimDat g.ncell) g

/-- `LayerCompressor::remove_particles_inner`, `cell_dat_compression.hpp:634-878` (test
mode not modelled): dense indices, then `compressorFinish`. -/
def compressorRemove (e : Env) (g : Group) (npart : Nat) (cells layers : List Int) :
    Option Group :=
  if npart < 1 then some g else
  (g.dat? g.rankSym).bind fun rank =>
  (denseIndices e g.ncell g.cellSym rank.dNpart npart cells layers g.mem
    ((e.freshI 0 npart).1, (e.freshI 1 npart).1, (e.freshI 2 npart).1)
    ((e.freshN 5 g.ncell).1)).bind (compressorFinish e g)

/-- `compressorRemove` with the indices of `compute_remove_compress_indicies_sparse` in
place of the dense ones.  The code runs the sparse function only in test mode,
`cell_dat_compression.hpp:705-710`; this is what its output means. -/
def compressorRemoveSparse (e : Env) (g : Group) (npart : Nat) (cells layers : List Int) :
    Option Group :=
  if npart < 1 then some g else
  (g.dat? g.rankSym).bind fun rank =>
  (sparseIndices e g.ncell g.cellSym rank.dNpart npart cells layers g.mem
    ((e.freshI 0 npart).1, (e.freshI 1 npart).1, (e.freshI 2 npart).1)
    ((e.freshN 5 g.ncell).1)).bind (compressorFinish e g)

/-- `ParticleGroup::remove_particles` (device pointers), `particle_group_impl.hpp:29-35`. -/
def removeParticles (e : Env) (g : Group) (npart : Nat) (cells layers : List Int) :
    Option Group :=
  (compressorRemove e g npart cells layers).bind fun g =>
  (setNpartCellFromDat g).bind fun g => some (invalidateVersion g)

/-- `removeParticles` with the sparse compressor, see `compressorRemoveSparse`. -/
def removeParticlesSparse (e : Env) (g : Group) (npart : Nat) (cells layers : List Int) :
    Option Group :=
  (compressorRemoveSparse e g npart cells layers).bind fun g =>
  (setNpartCellFromDat g).bind fun g => some (invalidateVersion g)

/-- `ParticleGroup::remove_particles` (host vectors), `particle_group.cpp:1019-1055`.
`none`: the assertions on the lengths. -/
def removeParticlesHost (e : Env) (g : Group) (npart : Nat) (cells layers : List Int) :
    Option Group :=
  if npart > 0 then
    if cells.length ≥ npart ∧ layers.length ≥ npart then
      removeParticles e g npart (cells.take npart) (layers.take npart)
    else none
  else some g

/-! ## ParticleRemover -/

/-- First loop of `ParticleRemover::remove`, `particle_remover.hpp:58-76`. -/
def removerCountStep (sym : Nat) (key : Int) (m : Mem) (p : Nat × Nat) (n : Nat) : Option Nat :=
  (m ⟨sym, p.1, 0, p.2⟩).bind fun v => some (if v = key then n + 1 else n)

/-- Second loop, `particle_remover.hpp:91-109`; updates the counter, the cells and the
layers. -/
def removerCollectStep (sym : Nat) (key : Int) (m : Mem) (p : Nat × Nat)
    (s : List Nat × List Int × List Int) : Option (List Nat × List Int × List Int) :=
  (m ⟨sym, p.1, 0, p.2⟩).bind fun v =>
  if v = key then
    (fetchAdd s.1 0).bind fun r => (st s.2.1 r.1 (p.1 : Int)).bind fun c =>
    (st s.2.2 r.1 (p.2 : Int)).bind fun l => some (r.2, c, l)
  else some s

/-- `ParticleRemover::remove`, `particle_remover.hpp:49-115`. -/
def removerRemove (e e' : Env) (g : Group) (sym : Nat) (key : Int) : Option Group :=
  (submitVisits e.loop g.hNpart true g.npartLocal none none).bind fun v0 =>
  (runItems (removerCountStep sym key g.mem) ((e.sched 20).order v0) 0).bind fun n =>
  if n > 0 then
    (submitVisits e.loop g.hNpart true g.npartLocal none none).bind fun v1 =>
    (runItems (removerCollectStep sym key g.mem) ((e.sched 21).order v1)
      ([0], (e.freshI 20 n).1, (e.freshI 21 n).1)).bind fun r =>
    removeParticles e' g n r.2.1 r.2.2
  else some g

end NP
