import Verif.Dsmc.ModelPartition
import Verif.Pair.ModelLoop
import Verif.Group.Model

/-!
# Model: `DSMC::PairSamplerNoReplacement`

Models `src/algorithms/dsmc/pair_sampler_no_replacement.cpp`. The random numbers are elements of
an arbitrary type `α`, and `conv u n` is the value of `static_cast<int>(u * n)` of line 294, which is
left arbitrary. The requested numbers of pairs are not negative. Integers do not overflow.
-/

set_option autoImplicit false

namespace NP

/-- `PairSamplerNoReplacement`, pair_sampler_no_replacement.hpp:18-36. `mem` and `dat` are the
CellDat `d_pair_list` with two columns. `maxPairCount` and `numPairs` are those of
`d_pair_list_device`. -/
structure NoRep where
  cellCount : Nat
  mem : Mem
  dat : Dat
  waveCount : List Nat
  waveOffsets : List Nat
  hPairCounts : List Nat
  pairCounts : List Nat
  pairCountsEs : List Nat
  numColl : List Nat
  maxPairCount : Int
  numPairs : Nat

/-- Constructor, pair_sampler_no_replacement.cpp:5-39. Only the waves are initialised. -/
def NoRep.new (e : Env) (cellCount : Nat) : NoRep :=
  ⟨cellCount, fun _ => none, ⟨0, 2, List.replicate cellCount 0, List.replicate cellCount 0, [], []⟩,
    List.replicate cellCount 1, List.replicate cellCount 0, List.replicate cellCount 0,
    (e.freshN 0 cellCount).1, (e.freshN 1 cellCount).1, (e.freshN 2 cellCount).1, 0, 0⟩

/-- `lambda_sample_index`, pair_sampler_no_replacement.cpp:285-305: the sampled index, the number
of particles left and the indices. -/
def sampleIndex {α : Type} (conv : α → Int → Int) (u : α) (n : Int) (idx : List Nat) :
    Option (Nat × Int × List Nat) :=
  (index (min (n - 1) (max 0 (conv u n)))).bind fun i =>
  (rd idx i).bind fun sampled =>
  (index (n - 1)).bind fun last => (rd idx last).bind fun toMove =>
  (st idx i toMove).bind fun idx => some (sampled, n - 1, idx)

/-- The numbers of particles and the indices that one work item uses. -/
structure Pools where
  na : Int
  nb : Int
  ia : List Nat
  ib : List Nat

/-- The two samples of a pair, pair_sampler_no_replacement.cpp:316-322. If the species are the
same, both come from the first pool (lines 257-259 and 272-274). -/
def samplePair {α : Type} (conv : α → Int → Int) (aIsB : Bool) (ua ub : α) (p : Pools) :
    Option (Nat × Nat × Pools) :=
  (sampleIndex conv ua p.na p.ia).bind fun x =>
  if aIsB then
    (sampleIndex conv ub x.2.1 x.2.2).bind fun y =>
      some (x.1, y.1, { p with na := y.2.1, ia := y.2.2 })
  else
    (sampleIndex conv ub p.nb p.ib).bind fun y =>
      some (x.1, y.1, ⟨x.2.1, y.2.1, x.2.2, y.2.2⟩)

/-- The loops of lines 263-270: the indices `0, ..., n - 1`. -/
def initIndices (n : Int) (idx : List Nat) : Option (List Nat) :=
  forLoop 0 n.toNat (fun i m => st m i i) idx

/-- What the sampling kernel reads besides the partition: the species, the numbers of collision
cells, the requests and their exclusive sums per cell, the exclusive sums of the cells, the random
numbers and the number of pairs. -/
structure NoRepArgs (α : Type) where
  la : Nat
  lb : Nat
  maxCC : Nat
  numColl : List Nat
  counts : List Nat
  countsEs : List Nat
  es : List Nat
  samples : List α
  numPairs : Nat

/-- The body of the loop over the pairs of a collision cell,
pair_sampler_no_replacement.cpp:308-340. -/
def noRepPair {α : Type} (conv : α → Int → Int) (part : CollPart) (x : NoRepArgs α) (cell q : Nat)
    (offCell offMesh pairx : Nat) (s : Pools × Mem) : Option (Pools × Mem) :=
  let r := pairx + offCell + offMesh
  (rd x.samples r).bind fun ua => (rd x.samples (r + x.numPairs)).bind fun ub =>
  (samplePair conv (x.la = x.lb) ua ub s.1).bind fun y =>
  (part.particleLayer cell q x.la y.1).bind fun a =>
  (part.particleLayer cell q x.lb y.2.1).bind fun b =>
  (mst s.2 ⟨0, cell, 0, offCell + pairx⟩ a).bind fun m =>
  (mst m ⟨0, cell, 1, offCell + pairx⟩ b).bind fun m => some (y.2.2, m)

/-- One work item of the sampling kernel, pair_sampler_no_replacement.cpp:242-343. A work item
only uses its own column of the local memory, whose contents `loc` are arbitrary. -/
def noRepItem {α : Type} (conv : α → Int → Int) (part : CollPart) (x : NoRepArgs α)
    (loc : Fresh Nat) (it : Nat × Nat) (m : Mem) : Option Mem :=
  (rd x.numColl it.1).bind fun n =>
  if it.2 < n then
    (part.numParticles it.1 it.2 x.la).bind fun na =>
    (part.numParticles it.1 it.2 x.lb).bind fun nb =>
    (initIndices na (loc part.maxOcc.toNat).1).bind fun ia =>
    (if x.la = x.lb then some (loc part.maxOcc.toNat).1
      else initIndices nb (loc part.maxOcc.toNat).1).bind fun ib =>
    (rd x.counts (it.1 * x.maxCC + it.2)).bind fun k =>
    (rd x.es it.1).bind fun offMesh =>
    (rd x.countsEs (it.1 * x.maxCC + it.2)).bind fun offCell =>
    (forLoop 0 k (noRepPair conv part x it.1 it.2 offCell offMesh) (⟨na, nb, ia, ib⟩, m)).bind
      fun s => some s.2
  else some m

/-- The sum over the collision cells of one mesh cell, computed by a work group,
pair_sampler_no_replacement.cpp:115-133. -/
def groupSum (ls maxCC : Nat) (numColl counts : List Nat) (cell : Nat) : Option Nat :=
  (rd numColl cell).bind fun n =>
  ((List.range ls).mapM fun lane =>
    ((strided lane n ls).mapM fun cx => rd counts (cell * maxCC + cx)).map List.sum).map List.sum

/-- The copy of the requests to the device, pair_sampler_no_replacement.cpp:77-87. The state is
`k_pair_counts_ccell` and `h_num_collision_cells`. -/
def copyRequests (maxCC : Nat) (requests : List (List Nat)) (mx : Nat) (s : List Nat × List Nat) :
    Option (List Nat × List Nat) :=
  (rd requests mx).bind fun row =>
  if row.length ≤ maxCC then
    (stRange s.1 (mx * maxCC) row).bind fun c =>
    (st s.2 mx row.length).bind fun n => some (c, n)
  else none

/-- `PairSamplerNoReplacement::sample`, pair_sampler_no_replacement.cpp:41-368. `draw` are the
random numbers, `lss` is the local size of the sampling kernel, which depends on the device. The
kernel of lines 139-141 copies `k_counts`. -/
def NoRep.sample {α : Type} (e : Env) (draw : Fresh α) (conv : α → Int → Int) (lss : Nat)
    (loc : Fresh Nat) (s : NoRep) (part : CollPart) (a b : Int) (requests : List (List Nat)) :
    Option NoRep :=
  (part.linearId a).bind fun la => (part.linearId b).bind fun lb =>
  if s.cellCount = part.cellCount then
    let size := part.maxCC * s.cellCount
    (forLoop 0 s.cellCount (copyRequests part.maxCC requests)
      ((e.freshN 3 size).1, s.numColl)).bind fun c =>
    (runItems (fun cell m => (groupSum e.loop.localSize part.maxCC c.2 c.1 cell).bind fun n =>
      st m cell n) ((e.sched 0).order (List.range s.cellCount)) (e.freshN 4 s.cellCount).1).bind
      fun counts =>
    (jointExclusiveScanBlocking (e.sched 1) (e.sched 2) (e.sched 3) e.scanLocalSize e.computeUnits
      s.cellCount (e.freshN 5) counts s.pairCountsEs).bind fun es =>
    (jointExclusiveScanNM (e.sched 4) e.scanLocalSize s.cellCount part.maxCC c.1
      (e.freshN 6 size).1).bind fun ccEs =>
    (rd counts (s.cellCount - 1)).bind fun lastCount =>
    (rd es (s.cellCount - 1)).bind fun lastEs =>
    (forLoop 0 s.cellCount (fun cx (t : Mem × Dat) =>
      (rd t.2.nrow cx).bind fun cur => (rd counts cx).bind fun req =>
      if req > cur then setNrow e cx req t else some t) (s.mem, s.dat)).bind fun t =>
    let num := lastCount + lastEs
    (getNextMultiple part.maxCC lss).bind fun items =>
    (runItems (noRepItem conv part ⟨la, lb, part.maxCC, c.2, c.1, ccEs, es, (draw (2 * num)).1, num⟩
        loc)
      ((e.sched 5).order ((List.range s.cellCount).flatMap fun c =>
        (List.range items).map fun q => (c, q))) t.1).bind fun m =>
    some { s with mem := m, dat := t.2, hPairCounts := counts, pairCounts := counts, pairCountsEs := es, numColl := c.2, maxPairCount := reduceMax counts, numPairs := num }
  else none

/-- `get_pair_list`, pair_sampler_no_replacement.cpp:355-365 and 370-372. -/
def NoRep.getPairList (s : NoRep) : PairView :=
  ⟨s.waveCount, s.cellCount, s.waveOffsets, s.mem, s.dat.sym, s.pairCounts,
    s.pairCountsEs.map fun n : Nat => (n : Int), s.maxPairCount, 1, s.numPairs⟩

/-- `get_host_pair_list`, pair_sampler_no_replacement.cpp:374-393, as the pairs of a cell, all in
wave 0. -/
def NoRep.hostPairs (s : NoRep) (cell : Nat) : Option (List (Int × Int)) :=
  (rd s.hPairCounts cell).bind fun n => (rd s.dat.nrow cell).bind fun nrow =>
  (List.range n).mapM fun k =>
    if k < nrow then
      (s.mem ⟨s.dat.sym, cell, 0, k⟩).bind fun a =>
      (s.mem ⟨s.dat.sym, cell, 1, k⟩).bind fun b => some (a, b)
    else none

end NP
