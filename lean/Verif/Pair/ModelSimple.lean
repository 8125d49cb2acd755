import Verif.Basics.Model
import Mathlib.Algebra.Group.Int.Defs
import Verif.Pair.ModelHost
import Verif.Pair.ModelLoop

/-!
# Model: device pair list

Models `src/pair_loop/cellwise_pair_list_simple.cpp`.
-/

set_option autoImplicit false

namespace NP

/-- `CellwisePairListSimple`, cellwise_pair_list_simple.hpp. `mem` and `dat` are the CellDat
`d_pair_list` with two columns. `h_pair_counts_es` and `h_wave_offsets` are local to `set`. -/
structure PairSimple where
  cellCount : Nat
  hWaveCount : List Nat
  dWaveCount : List Nat
  dWaveOffsets : List Nat
  mem : Mem
  dat : Dat
  dPairCounts : List Nat
  dPairCountsEs : List Int
  hPairCounts : List Nat
  maxPairCount : Int
  maxWaveCount : Int
  pairCount : Int
  mode : Int

/-- `clear`, cellwise_pair_list_simple.cpp:231-252. The work items of the kernel write distinct
elements. -/
def PairSimple.clear (s : PairSimple) : Option PairSimple :=
  let zeros := List.replicate s.cellCount 0
  (stRange s.dWaveCount 0 zeros).bind fun wc =>
  (stRange s.dPairCounts 0 zeros).bind fun pc =>
  (stRange s.dWaveOffsets 0 zeros).bind fun wo =>
  some { s with dWaveCount := wc, dPairCounts := pc, dWaveOffsets := wo, maxPairCount := -1, hWaveCount := List.replicate s.hWaveCount.length 0, hPairCounts := List.replicate s.hPairCounts.length 0, maxWaveCount := -1, pairCount := -1, mode := 0 }

/-- The constructor, cellwise_pair_list_simple.cpp:6-21. Device buffers are not initialised. -/
def PairSimple.new (e : Env) (cellCount : Nat) : Option PairSimple :=
  PairSimple.clear ⟨cellCount, List.replicate cellCount 0, (e.freshN 0 cellCount).1,
    (e.freshN 1 cellCount).1, fun _ => none, ⟨0, 2, List.replicate cellCount 0,
      List.replicate cellCount 0, [], []⟩, (e.freshN 2 cellCount).1, (e.freshI 0 cellCount).1,
    List.replicate cellCount 0, 0, 0, 0, 0⟩

/-- The loop that finds the layers, cellwise_pair_list_simple.cpp:41-48. -/
def pushLayers (cellCount : Nat) : List Int → List Nat → Int → Option (List Nat × List Nat × Int)
  | [], h, mx => some ([], h, mx)
  | c :: cs, h, mx =>
    if 0 ≤ c ∧ c < cellCount then
      (rd h c.toNat).bind fun layer =>
      (st h c.toNat (layer + 1)).bind fun h' =>
      (pushLayers cellCount cs h' (max mx ((layer + 1 : Nat) : Int))).bind fun r =>
      some (layer :: r.1, r.2)
    else none

/-- The body of the kernel, cellwise_pair_list_simple.cpp:73-78. -/
def pushStore (x : (Int × Nat) × Int × Int) (m : Mem) : Option Mem :=
  (mst m ⟨0, x.1.1.toNat, 0, x.1.2⟩ x.2.1).bind fun m => mst m ⟨0, x.1.1.toNat, 1, x.1.2⟩ x.2.2

/-- `push_back`, cellwise_pair_list_simple.cpp:23-123. The cell indices were checked before they
are used in the kernel, so that `toNat` does not change them. -/
def PairSimple.pushBack (e : Env) (s : PairSimple) (c i j : List Int) : Option PairSimple :=
  if s.mode = 0 ∨ s.mode = 1 then
    if c.length = i.length ∧ c.length = j.length then
      if c.length = 0 then some { s with mode := 1 }
      else if s.hPairCounts.length = s.dPairCounts.length then
        (pushLayers s.cellCount c s.dPairCounts (-1)).bind fun r =>
        (forLoop 0 s.cellCount (fun cx (t : Mem × Dat) =>
          (rd t.2.nrow cx).bind fun cur => (rd r.2.1 cx).bind fun req =>
          if req > cur then setNrow e cx req t else some t) (s.mem, s.dat)).bind fun t =>
        (runItems pushStore ((e.sched 0).order ((c.zip r.1).zip (i.zip j))) t.1).bind fun m =>
        (slice r.2.1 0 s.cellCount).bind fun counts =>
        (jointExclusiveScanGroup e.scanLocalSize s.cellCount (counts.map fun n : Nat => (n : Int))
          s.dPairCountsEs).bind fun es =>
        (rd es (s.cellCount - 1)).bind fun lastEs =>
        if lastEs ≥ 0 then
          (rd r.2.1 (s.cellCount - 1)).bind fun lastCount =>
          (stRange s.dWaveCount 0 (List.replicate s.cellCount 1)).bind fun wc =>
          some { s with mode := 1, mem := m, dat := t.2, dPairCounts := r.2.1, hPairCounts := r.2.1, dPairCountsEs := es, pairCount := lastEs + lastCount, dWaveCount := wc, maxPairCount := r.2.2, hWaveCount := List.replicate s.hWaveCount.length 1, maxWaveCount := 1 }
        else none
      else none
    else none
  else none

/-- `BufferBase::realloc_no_copy` without a size factor, device_buffers.hpp:73-91. -/
def reallocNoCopy {α : Type} (fresh : Fresh α) (b : List α) (size : Nat) : List α :=
  if size = 0 then b else if size > b.length then (fresh size).1 else b

/-- The host arrays that `set` fills: pair counts, wave offsets, exclusive sums, with the number
of pairs of the cell and of all cells so far. -/
structure SetArrays where
  counts : List Nat
  offsets : List Nat
  es : List Int
  num : Nat
  linear : Int

/-- `m[cellx].at(wavex)`, which throws if there is no such wave. `operator[]` inserts an empty map
for a cell without entry, which is not observable. -/
def PairHost.waveAt (p : PairHost) (cell wave : Nat) : Option (List Int × List Int) :=
  (mapGet p.waves (cell : Int)).bind fun m => mapGet m (wave : Int)

/-- The body of the inner loop, cellwise_pair_list_simple.cpp:167-176. -/
def setWave (p : PairHost) (cellCount cell w : Nat) (a : SetArrays) : Option SetArrays :=
  (p.waveAt cell w).bind fun v =>
  (st a.counts (w * cellCount + cell) v.1.length).bind fun counts =>
  (st a.offsets (w * cellCount + cell) a.num).bind fun offsets =>
  (st a.es (w * cellCount + cell) a.linear).bind fun es =>
  some ⟨counts, offsets, es, a.num + v.1.length, a.linear + v.1.length⟩

/-- The body of the outer loop, cellwise_pair_list_simple.cpp:163-180. -/
def setCell (e : Env) (p : PairHost) (cellCount cell : Nat) (t : SetArrays × Mem × Dat) :
    Option (SetArrays × Mem × Dat) :=
  (forLoop 0 (p.numWaves cell) (setWave p cellCount cell) { t.1 with num := 0 }).bind fun a =>
  if a.num ≠ 0 then (setNrow e cell a.num t.2).bind fun md => some (a, md) else some (a, t.2)

/-- A memcpy of the first `n` elements of a vector to the rows from `row` on of a column. -/
def copyColumn (sym cell comp row n : Nat) (src : List Int) (m : Mem) : Option Mem :=
  forLoop 0 n (fun k m => (rd src k).bind fun x => mst m ⟨sym, cell, comp, row + k⟩ x) m

/-- The body of the inner loop, cellwise_pair_list_simple.cpp:208-223. -/
def setCopyWave (p : PairHost) (cell w : Nat) (t : Mem × Nat × Int × Int) :
    Option (Mem × Nat × Int × Int) :=
  (p.waveAt cell w).bind fun v =>
  if v.1.length ≠ 0 then
    (copyColumn 0 cell 0 t.2.1 v.1.length v.1 t.1).bind fun m =>
    (copyColumn 0 cell 1 t.2.1 v.1.length v.2 m).bind fun m =>
    some (m, t.2.1 + v.1.length, max t.2.2.1 v.1.length, t.2.2.2 + v.1.length)
  else some (t.1, t.2.1 + v.1.length, t.2.2)

/-- The body of the outer loop, cellwise_pair_list_simple.cpp:201-224. -/
def setCopyCell (p : PairHost) (cell : Nat) (t : Mem × Int × Int) : Option (Mem × Int × Int) :=
  (forLoop 0 (p.numWaves cell) (setCopyWave p cell) (t.1, 0, t.2)).bind fun r =>
  some (r.1, r.2.2)

/-- `set`, cellwise_pair_list_simple.cpp:125-229. The host array of exclusive sums is resized and
not initialised: its old contents are arbitrary here. The asynchronous copies write to distinct
places, so that their order does not matter. -/
def PairSimple.set (e : Env) (s : PairSimple) (p : PairHost) : Option PairSimple :=
  if (s.cellCount : Int) = p.cellCount then
    let hWaveCount := (List.range s.cellCount).map fun c : Nat => p.numWaves (c : Int)
    let maxWave := hWaveCount.foldl max 0
    let size := maxWave * s.cellCount
    (stRange s.dWaveCount 0 hWaveCount).bind fun wc =>
    (forLoop 0 s.cellCount (setCell e p s.cellCount)
      (⟨List.replicate size 0, List.replicate size 0, (e.freshI 1 size).1, 0, 0⟩,
        s.mem, s.dat)).bind fun r =>
    (stRange (reallocNoCopy (e.freshN 3) s.dWaveOffsets size) 0 r.1.offsets).bind fun dOffsets =>
    (stRange (reallocNoCopy (e.freshN 4) s.dPairCounts size) 0 r.1.counts).bind fun dCounts =>
    (stRange (reallocNoCopy (e.freshI 2) s.dPairCountsEs size) 0 r.1.es).bind fun dEs =>
    (forLoop 0 s.cellCount (setCopyCell p) (r.2.1, 0, 0)).bind fun t =>
    some { s with hWaveCount := hWaveCount, dWaveCount := wc, maxWaveCount := maxWave, dWaveOffsets := dOffsets, dPairCounts := dCounts, dPairCountsEs := dEs, hPairCounts := r.1.counts, mem := t.1, dat := r.2.2, maxPairCount := t.2.1, pairCount := t.2.2 }
  else none

/-- `get_pair_list`, cellwise_pair_list_simple.cpp:254-268. -/
def PairSimple.getPairList (s : PairSimple) : PairView :=
  ⟨s.dWaveCount, s.cellCount, s.dWaveOffsets, s.mem, s.dat.sym, s.dPairCounts, s.dPairCountsEs,
    s.maxPairCount, s.maxWaveCount, s.pairCount⟩

/-- `get_host_pair_list`, cellwise_pair_list_simple.cpp:270-289, as the pairs of a cell and wave. -/
def PairSimple.getHostWave (s : PairSimple) (cell wave : Nat) : Option (List (Int × Int)) :=
  ((List.range wave).mapM fun w => rd s.hPairCounts (w * s.cellCount + cell)).bind fun before =>
  (rd s.hPairCounts (wave * s.cellCount + cell)).bind fun n =>
  (rd s.dat.nrow cell).bind fun nrow =>
  (List.range n).mapM fun k =>
    if before.sum + k < nrow then
      (s.mem ⟨s.dat.sym, cell, 0, before.sum + k⟩).bind fun a =>
      (s.mem ⟨s.dat.sym, cell, 1, before.sum + k⟩).bind fun b => some (a, b)
    else none

end NP
