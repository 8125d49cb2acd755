import Verif.Sub.Model
import Verif.Basics.Model
import Verif.Pair.ModelLoop

/-!
# Model: `DSMC::PairSamplerNTC`

Models `src/algorithms/dsmc/pair_sampler_ntc.cpp`. The random numbers are elements of an arbitrary
type `α`, and `conv u n` is the value of the conversion of `u * n` to `int` (lines 169-170 and
261-262). The requested numbers of pairs are not negative. Integers do not overflow. The two sub
groups are sub groups of the same group with `npart` particles in its cells (the assertion of lines
39-41).

Work groups only share the buffers `k_pair_list`, `k_wave_counts` and `k_max_wave_count`, and each
writes only the entries of its cell and reads only entries that it has written itself. The model
runs the work groups one after the other, in an arbitrary order. Within a work group, what the work
items do between two barriers is run in an arbitrary order, down to the single atomic operations
where their order matters.
-/

set_option autoImplicit false

namespace NP

/-- `selection.d_map_cells_to_particles.map_loop_layer_to_layer`,
sub_group_selector_base.hpp:33-38. A sub group that is the whole group has no map: the pointer is
null (sub_group_selector_whole_group.hpp:48). -/
def Parent.mapLayer : Parent → Nat → Nat → Option Nat
  | .whole, _, _ => none
  | .sub s, c, k => s.layerAt c k

/-- What the kernels read: the sub groups, the numbers of pairs and their exclusive sums, the
random numbers, the total number of pairs, the number of cells and the block size. -/
structure NtcArgs (α : Type) where
  npart : List Nat
  A : Parent
  B : Parent
  aIsB : Bool
  counts : List Nat
  es : List Nat
  samples : List α
  num : Nat
  cellCount : Nat
  blockSize : Nat

/-- The two layers of pair `px` of a cell, pair_sampler_ntc.cpp:144-147 and 168-181, or 230-235
and 258-273. -/
def ntcPick {α : Type} (conv : α → Int → Int) (x : NtcArgs α) (cell px : Nat) :
    Option (Nat × Nat) :=
  (rd (x.A.dCounts x.npart) cell).bind fun na => (rd (x.B.dCounts x.npart) cell).bind fun nb =>
  (rd x.es cell).bind fun es =>
  let rangeA : Int := na
  let rangeB : Int := if x.aIsB then (na : Int) - 1 else nb
  (rd x.samples (es + px)).bind fun ua => (rd x.samples (x.num + (es + px))).bind fun ub =>
  let i1 := min (conv ua rangeA) (rangeA - 1)
  let j1 := min (conv ub rangeB) (rangeB - 1)
  (if x.aIsB then (if na = 0 then none else some (Int.tmod (i1 + 1 + j1) na)) else some j1).bind
    fun j2 =>
  (index i1).bind fun i => (index j2).bind fun j =>
  (x.A.mapLayer cell i).bind fun i3 => (x.B.mapLayer cell j).bind fun j3 => some (i3, j3)

/-- The buffers `k_pair_list` and `k_wave_counts`, and a maximum of wave counts. -/
structure NtcMem where
  list : List Int
  waves : List Nat
  maxWave : Nat

/-- The state of a work group between two blocks: `la_flags`, `la_counts[0]` and the buffers with
the maximum wave count of the cell. -/
structure NtcGroup where
  flags : List Nat
  cnt : Nat
  mem : NtcMem

/-! ## CPU -/

/-- The body of the loop over the pairs of a block, pair_sampler_ntc.cpp:166-194. The state is
`la_flags`, `k_pair_list`, `max_wave_count` and `inner_max_wave_count`. -/
def ntcCpuPair {α : Type} (conv : α → Int → Int) (x : NtcArgs α) (cell es px : Nat)
    (s : List Nat × List Int × Nat × Nat) : Option (List Nat × List Int × Nat × Nat) :=
  (ntcPick conv x cell px).bind fun p =>
  (rd s.1 p.1).bind fun wi => (rd s.1 p.2).bind fun wj =>
  let w := max wi wj
  (st s.1 p.1 (w + 1)).bind fun f => (st f p.2 (w + 1)).bind fun f =>
  (st s.2.1 (es + px) (p.1 : Int)).bind fun m =>
  (st m (x.num * 1 + (es + px)) (p.2 : Int)).bind fun m =>
  (st m (x.num * 2 + (es + px)) (w : Int)).bind fun m =>
  some (f, m, max (w + 1) s.2.2.1, max (w + 1) s.2.2.2)

/-- The body of the loop that resets the flags, pair_sampler_ntc.cpp:199-206. -/
def ntcCpuReset {α : Type} (x : NtcArgs α) (es : Nat) (list : List Int) (px : Nat)
    (f : List Nat) : Option (List Nat) :=
  (rd list (es + px)).bind fun i => (rd list (x.num * 1 + (es + px))).bind fun j =>
  (index i).bind fun i => (index j).bind fun j =>
  (st f i 0).bind fun f => st f j 0

/-- One block, pair_sampler_ntc.cpp:161-207. -/
def ntcCpuBlock {α : Type} (conv : α → Int → Int) (x : NtcArgs α) (cell es n block : Nat)
    (s : NtcGroup) : Option NtcGroup :=
  let start := block * x.blockSize
  let stop := min (start + x.blockSize) n
  (forLoop start stop (ntcCpuPair conv x cell es) (s.flags, s.mem.list, s.mem.maxWave, 0)).bind
    fun t =>
  (st s.mem.waves (block * x.cellCount + cell) t.2.2.2).bind fun wv =>
  (forLoop start stop (ntcCpuReset x es t.2.1) t.1).bind fun f =>
  some ⟨f, s.cnt, ⟨t.2.1, wv, t.2.2.1⟩⟩

/-! ## GPU -/

/-- One atomic increment of `la_flags`, pair_sampler_ntc.cpp:275-284: work item `it.1` increments
the flag of its first (`it.2 = 0`) or second particle and keeps the old value. -/
def ntcFlag (picks : List (Nat × Nat)) (it : Nat × Nat) (s : List Nat × List Nat) :
    Option (List Nat × List Nat) :=
  (rd picks it.1).bind fun p =>
  (fetchAdd s.1 (if it.2 = 0 then p.1 else p.2)).bind fun r =>
  (st s.2 (2 * it.1 + it.2) r.1).bind fun res => some (r.2, res)

/-- Both flags that a work item has read are zero, pair_sampler_ntc.cpp:289. -/
def ntcFree (res : List Nat) (lane : Nat) : Bool :=
  decide (res[2 * lane]? = some 0 ∧ res[2 * lane + 1]? = some 0)

/-- A work item sets the flags of both its particles. -/
def ntcSetFlags (picks : List (Nat × Nat)) (v lane : Nat) (f : List Nat) : Option (List Nat) :=
  (rd picks lane).bind fun p => (st f p.1 v).bind fun f => st f p.2 v

/-- A loop over `orderx` in which the work item with `order = orderx + 1` does something,
pair_sampler_ntc.cpp:311-317 and 328-342. The work items in `ordered` have incremented the counter
in this order, starting at `cnt` (lines 292-296). -/
def ntcInOrder {σ : Type} (cnt : Nat) (ordered : List Nat) (step : Nat → σ → Option σ) (s : σ) :
    Option σ :=
  forLoop 0 (cnt + ordered.length) (fun orderx s =>
    if orderx < cnt then some s else (rd ordered (orderx - cnt)).bind fun lane => step lane s) s

/-- A conflicting pair finds its wave, pair_sampler_ntc.cpp:333-338. The state is `la_flags`, the
waves of the work items (`none` is -1) and `la_counts[0]`. -/
def ntcResolve (picks : List (Nat × Nat)) (lane : Nat) (s : List Nat × List (Option Nat) × Nat) :
    Option (List Nat × List (Option Nat) × Nat) :=
  (rd picks lane).bind fun p =>
  (rd s.1 p.1).bind fun wi => (rd s.1 p.2).bind fun wj =>
  let w := max wi wj
  (st s.1 p.1 (w + 1)).bind fun f => (st f p.2 (w + 1)).bind fun f =>
  (st s.2.1 lane (some w)).bind fun ws => some (f, ws, max w s.2.2)

/-- A store to one of the three columns of the pair list, pair_sampler_ntc.cpp:347-352. -/
def ntcStore {α : Type} (x : NtcArgs α) (picks : List (Nat × Nat)) (waves : List (Option Nat))
    (base : Nat) (it : Nat × Nat) (m : List Int) : Option (List Int) :=
  (rd picks it.1).bind fun p => (rd waves it.1).bind fun w =>
  match w with
  | none => some m
  | some w => st m (x.num * it.2 + (base + it.1))
      (if it.2 = 0 then (p.1 : Int) else if it.2 = 1 then (p.2 : Int) else (w : Int))

/-- The schedules of one block: the atomic increments of the flags, of the counter, and what the
work items do between barriers. -/
structure NtcSched where
  flags : Sched
  counter : Sched
  ones : Sched
  store : Sched
  reset : Sched

/-- One iteration of the loop over the pairs of a cell, pair_sampler_ntc.cpp:251-366, with
`num_sampled_pairs = block * local_range`. The work items with a pair are `0, ..., k - 1`. -/
def ntcGpuBlock {α : Type} (conv : α → Int → Int) (x : NtcArgs α) (sc : NtcSched)
    (cell es n block : Nat) (s : NtcGroup) : Option NtcGroup :=
  let start := block * x.blockSize
  let lanes := List.range (min x.blockSize (n - start))
  (lanes.mapM fun l => ntcPick conv x cell (start + l)).bind fun picks =>
  (runItems (ntcFlag picks) (sc.flags.order (lanes.flatMap fun l => [(l, 0), (l, 1)]))
    (s.flags, List.replicate (2 * lanes.length) 0)).bind fun f =>
  let ordered := sc.counter.order (lanes.filter fun l => !ntcFree f.2 l)
  let waves := lanes.map fun l => if ntcFree f.2 l then some 0 else none
  (if s.cnt + ordered.length > 0 then
    (ntcInOrder s.cnt ordered (ntcSetFlags picks 0) f.1).bind fun f1 =>
    (runItems (ntcSetFlags picks 1) (sc.ones.order (lanes.filter (ntcFree f.2))) f1).bind fun f2 =>
    ntcInOrder s.cnt ordered (ntcResolve picks) (f2, waves, 0)
  else some (f.1, waves, 0)).bind fun r =>
  (runItems (ntcStore x picks r.2.1 (es + start))
    (sc.store.order (lanes.flatMap fun l => [(l, 0), (l, 1), (l, 2)])) s.mem.list).bind fun m =>
  (st s.mem.waves (block * x.cellCount + cell) (r.2.2 + 1)).bind fun wv =>
  (runItems (ntcSetFlags picks 0)
    (sc.reset.order (lanes.filter fun l => ((r.2.1[l]?).getD none).isSome)) r.1).bind fun fl =>
  some ⟨fl, 0, ⟨m, wv, (r.2.1.filterMap id).foldl (fun a w => max a (w + 1)) s.mem.maxWave⟩⟩

/-! ## A cell, and the whole -/

/-- What a sample depends on besides its arguments: the kind of device, the orders, the contents
of allocated memory, and by how much buffers are larger than requested. -/
structure NtcEnv where
  cpu : Bool
  cells : Sched
  blocks : Nat → Nat → NtcSched
  freshN : Fresh Nat
  freshI : Fresh Int
  over : Nat

/-- The work group of one cell, pair_sampler_ntc.cpp:140-210 and 226-369. `maxNpart` is the size
of `la_flags`, whose contents are set to zero first. -/
def ntcCell {α : Type} (e : NtcEnv) (conv : α → Int → Int) (x : NtcArgs α) (maxNpart cell : Nat)
    (m : NtcMem) : Option NtcMem :=
  (rd x.npart cell).bind fun npart => (rd x.counts cell).bind fun n =>
  (rd x.es cell).bind fun es =>
  (stRange (e.freshN maxNpart).1 0 (List.replicate npart 0)).bind fun flags =>
  (divRoundUp n x.blockSize).bind fun nb =>
  (forLoop 0 nb (fun block s =>
    if e.cpu then ntcCpuBlock conv x cell es n block s
    else ntcGpuBlock conv x (e.blocks cell block) cell es n block s)
    ⟨flags, 0, ⟨m.list, m.waves, 0⟩⟩).bind fun s =>
  some ⟨s.mem.list, s.mem.waves, max m.maxWave s.mem.maxWave⟩

/-- The checks and exclusive sums on the host, pair_sampler_ntc.cpp:47-70. The state is
`h_pair_counts_es`, `exscan` and `max_num_blocks`. -/
def ntcHost (npart : List Nat) (A B : Parent) (aIsB : Bool) (counts : List Nat) (blockSize cx : Nat)
    (s : List Nat × Nat × Nat) : Option (List Nat × Nat × Nat) :=
  (rd counts cx).bind fun n => (rd (A.counts npart) cx).bind fun na =>
  (rd (B.counts npart) cx).bind fun nb =>
  if (if aIsB then na ≥ 2 ∨ n = 0 else (na ≥ 1 ∨ n = 0) ∧ (nb ≥ 1 ∨ n = 0)) then
    (getNextMultiple n blockSize).bind fun k =>
    some (s.1 ++ [s.2.1], s.2.1 + n, max s.2.2 (k / blockSize))
  else none

/-- `PairSamplerNTC::sample`, pair_sampler_ntc.cpp:28-393: the device structure. `localMem` is the
number of integers that fit into the local memory of the device. -/
def ntcSample {α : Type} (e : NtcEnv) (draw : Fresh α) (conv : α → Int → Int)
    (cellCount blockSize localMem : Nat) (npart : List Nat) (A B : Parent) (aIsB : Bool)
    (counts : List Nat) : Option BlockView :=
  if counts.length = cellCount ∧ npart.length = cellCount then
    (forLoop 0 cellCount (ntcHost npart A B aIsB counts blockSize) ([], 0, 0)).bind fun h =>
    let num := h.2.1
    let maxNpart := npart.foldl max 0
    if maxNpart + 1 ≤ localMem then
      (runItems (ntcCell e conv ⟨npart, A, B, aIsB, counts, h.1, (draw (2 * num)).1, num, cellCount,
          blockSize⟩ maxNpart) (e.cells.order (List.range cellCount))
        ⟨(e.freshI (num * 3 + e.over)).1, (e.freshN (h.2.2 * cellCount + e.over)).1, 0⟩).bind fun m =>
      some ⟨num, blockSize, cellCount, m.maxWave, m.waves, counts, h.1, m.list⟩
    else none
  else none

/-- `PairSamplerNTC::get_pair_list`, pair_sampler_ntc.cpp:395-412: `stored` is what `sample` has
stored (`none` before the first call), the device structure and the versions of the two sub groups,
and `nowA`, `nowB` are the versions now, after `create_if_required` (`none` if the sub group was
destroyed). -/
def ntcGetPairList (stored : Option (BlockView × Nat × Nat)) (nowA nowB : Option Nat) :
    Option BlockView :=
  stored.bind fun s => nowA.bind fun va => nowB.bind fun vb =>
  if va = s.2.1 ∧ vb = s.2.2 then some s.1 else none

end NP
