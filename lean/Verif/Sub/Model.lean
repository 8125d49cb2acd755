import Verif.Loop.Model
import Verif.Mesh.Model

/-!
# Model: selections and the selectors that create them

Models `src/particle_sub_group/*.cpp` and `include/neso_particles/particle_sub_group/*.hpp`.

Pointers into `d_layer_map` are offsets into that array. Buffers taken from resource stacks or
resized by `realloc_no_copy` hold arbitrary values and have exactly the requested size (the
real buffers may be larger). `npart` are the numbers of particles in the cells of the group;
that host and device copies of these and their exclusive sum agree is C18.
-/

set_option autoImplicit false

namespace NP

/-- `Selection`, sub_group_selector_base.hpp:44-53, with the memory its pointers point to. -/
structure Selection where
  /-- `npart_local` -/
  npartLocal : Nat
  /-- `h_npart_cell` -/
  hNpart : List Nat
  /-- `d_npart_cell` -/
  dNpart : List Nat
  /-- `d_npart_cell_es` -/
  dEs : List Nat
  /-- `d_map_cells_to_particles.map_ptr`: for each cell an offset into `layers` -/
  starts : List Nat
  /-- `d_layer_map` -/
  layers : List Nat
deriving DecidableEq, Repr

/-- `map_loop_layer_to_layer`, sub_group_selector_base.hpp:35-38. -/
def Selection.layerAt (s : Selection) (cell loopLayer : Nat) : Option Nat :=
  (rd s.starts cell).bind fun o => rd s.layers (o + loopLayer)

/-- The parent of a sub group: the group itself (or a sub group that is the whole group, for
which all selectors and loops use the group instead), or a sub group with its selection. -/
inductive Parent where
  | whole
  | sub (s : Selection)

/-- The numbers of particles per cell of the iteration set. -/
def Parent.counts (npart : List Nat) : Parent → List Nat
  | .whole => npart
  | .sub s => s.hNpart

/-- The device copy of the numbers of particles per cell. -/
def Parent.dCounts (npart : List Nat) : Parent → List Nat
  | .whole => npart
  | .sub s => s.dNpart

/-- The exclusive sum of the numbers of particles per cell. -/
def Parent.es (npart : List Nat) : Parent → List Nat
  | .whole => npartCellEs npart
  | .sub s => s.dEs

/-- `get_npart_local`. -/
def Parent.total (npart : List Nat) : Parent → Nat
  | .whole => npart.sum
  | .sub s => s.npartLocal

/-- The layer of the particle at a loop layer, particle_loop.hpp:227-285 and
particle_loop_sub_group.hpp:176-233. -/
def Parent.layerAt : Parent → Nat → Nat → Option Nat
  | .whole, _, k => some k
  | .sub s, c, k => s.layerAt c k

/-- `get_host_map_cells_to_particles`, sub_group_selector_base.cpp:7-30, and
`ParticleSubGroup::get_cells_layers`, particle_sub_group_base.cpp:7-28: the cells and layers of
the particles of the sub group. The pointers of empty cells are copied but not used. -/
def Selection.cellsLayers (s : Selection) : Option (List (Nat × Nat)) :=
  collectM (fun c => (rd s.hNpart c).bind fun n =>
    if n > 0 then (rd s.starts c).bind fun o =>
      (slice s.layers o (o + n)).bind fun row => some (row.map fun l => (c, l))
    else some [])
    (List.range s.hNpart.length)

/-! ## `SubGroupParticleMap` -/

/-- What `SubGroupParticleMap::create` changes. -/
structure LayerMap where
  /-- `h_cell_starts`, copied to `d_cell_starts` -/
  starts : List Nat
  /-- `d_layer_map` -/
  layers : List Nat
  /-- `npart_total` -/
  total : Nat

/-- `SubGroupParticleMap::create`, sub_group_particle_map.cpp:27-55. `fresh` is the contents
of the reallocated layer map. -/
def mapCreate (fresh : Fresh Nat) (m : LayerMap) (cellStart cellEnd : Nat) (counts es : List Nat) :
    Option LayerMap :=
  if cellStart ≤ m.starts.length ∧ cellEnd ≤ m.starts.length then
    if cellStart < cellEnd then
      (rd es (cellEnd - 1)).bind fun e => (rd counts (cellEnd - 1)).bind fun n =>
      (forLoop cellStart cellEnd (fun c starts => (rd es c).bind fun o => st starts c o)
        m.starts).bind fun starts =>
      some ⟨starts, (fresh (e + n)).val, e + n⟩
    else some m
  else none

/-! ## `SubGroupSelector` -/

/-- The schedules and the memory of one call of a selector's `create`. -/
structure SelEnv where
  /-- loop parameters -/
  P : LoopParams
  /-- orders of the kernels -/
  s0 : Sched
  s1 : Sched
  s2 : Sched
  s3 : Sched
  /-- contents of new memory -/
  fi : Fresh Int
  fn : Fresh Nat
  /-- `NESO_PARTICLES_CACHELINE_NUM_int`, typedefs.hpp:509 -/
  pad : Nat
  /-- the state of the map before the call -/
  map : LayerMap
  /-- the previous contents of the count buffers -/
  h0 : List Nat
  d0 : List Nat
  es0 : List Nat
  /-- `LOOP_LOCAL_SIZE` -/
  localSize : Nat

/-- The visits of a `particle_loop` over all cells of the parent. -/
def parentVisits (P : LoopParams) (npart : List Nat) (par : Parent) : Option (List (Nat × Nat)) :=
  submitVisits P (par.counts npart) true (par.total npart) none none

/-- `loop_0`, sub_group_selector.hpp:91-108. The condition `cond cell layer` is the value of the
user's kernel for the particle, which only reads particle data. The state is the array of
counters and the array of layers. -/
def selLoop0 (npart : List Nat) (par : Parent) (cond : Nat → Nat → Bool) (pad : Nat)
    (it : Nat × Nat) (s : List Nat × List Int) : Option (List Nat × List Int) :=
  (par.layerAt it.1 it.2).bind fun layer =>
  (localLinearIndex npart it.1 layer).bind fun lin =>
  if cond it.1 layer then
    (fetchAdd s.1 (npart.length + it.1 * pad)).bind fun l =>
    (st s.2 lin (l.1 : Int)).bind fun m => some (l.2, m)
  else (st s.2 lin (-1)).bind fun m => some (s.1, m)

/-- `loop_1`, sub_group_selector.cpp:9-23 and 28-42. -/
def selLoop1 (npart : List Nat) (par : Parent) (mapLayers : List Int) (starts : List Nat)
    (it : Nat × Nat) (layers : List Nat) : Option (List Nat) :=
  (par.layerAt it.1 it.2).bind fun layer =>
  (localLinearIndex npart it.1 layer).bind fun lin =>
  (rd mapLayers lin).bind fun l =>
  if l > -1 then (rd starts it.1).bind fun o => st layers (o + l.toNat) layer
  else some layers

/-- `pre_process_npart_cell`, sub_group_selector.cpp:45-56. -/
def preProcess (ncell pad : Nat) (i : Nat) (b : List Nat) : Option (List Nat) :=
  (rd b i).bind fun v => st b (ncell + i * pad) v

/-- `post_process_npart_cell`, sub_group_selector.cpp:57-68. -/
def postProcess (ncell pad : Nat) (i : Nat) (b : List Nat) : Option (List Nat) :=
  (rd b (ncell + i * pad)).bind fun v => st b i v

/-- The host loop of sub_group_selector.cpp:98-103: the exclusive sum and the total. -/
def hostScan (counts : List Nat) (ncell : Nat) (es : List Nat) : Option (List Nat × Nat) :=
  forLoop 0 ncell (fun c s => (rd counts c).bind fun n =>
    (st s.1 c s.2).bind fun es => some (es, s.2 + n)) (es, 0)

/-- `SubGroupSelector::create`, sub_group_selector.cpp:70-130. The counter buffer has
`ncell + ncell * pad` entries (sub_group_particle_map.cpp:21-22), of which the first `ncell`
are `d_npart_cell`. -/
def selectCreate (e : SelEnv) (npart : List Nat) (par : Parent) (cond : Nat → Nat → Bool) :
    Option Selection :=
  let ncell := npart.length
  (stRange e.d0 0 (List.replicate ncell 0)).bind fun d =>
  (runItems (preProcess ncell e.pad) (e.s0.order (List.range ncell)) d).bind fun d =>
  (parentVisits e.P npart par).bind fun visits =>
  (runItems (selLoop0 npart par cond e.pad) (e.s1.order visits) (d, (e.fi npart.sum).val)).bind
    fun s =>
  (runItems (postProcess ncell e.pad) (e.s2.order (List.range ncell)) s.1).bind fun d =>
  (slice d 0 ncell).bind fun counts =>
  (stRange e.h0 0 counts).bind fun h =>
  (hostScan h ncell e.es0).bind fun es =>
  (mapCreate e.fn e.map 0 ncell h es.1).bind fun m =>
  (parentVisits e.P npart par).bind fun visits =>
  (runItems (selLoop1 npart par s.2 m.starts) (e.s3.order visits) m.layers).bind fun layers =>
  some ⟨es.2, h.take ncell, counts, es.1, m.starts, layers⟩

/-! ## `SubGroupSelectorExclusiveScan` -/

/-- `get_loop_linear_index`, particle_loop_index.hpp:53-58, for a loop over all cells, where
the starting cell is 0. -/
def loopIdx (es : List Nat) (cell loopLayer : Nat) : Option Nat :=
  (rd es cell).bind fun o => (rd es 0).bind fun o0 =>
    if o0 ≤ o + loopLayer then some (o + loopLayer - o0) else none

/-- `loop_0` of the scan selector, sub_group_selector_exclusive_scan.hpp:219-229. -/
def scanLoop0 (npart : List Nat) (par : Parent) (cond : Nat → Nat → Bool)
    (it : Nat × Nat) (masks : List Nat) : Option (List Nat) :=
  (par.layerAt it.1 it.2).bind fun layer =>
  (loopIdx (par.es npart) it.1 it.2).bind fun lin =>
  if cond it.1 layer then st masks lin 1 else some masks

/-- The second loop of the scan selector, sub_group_selector_exclusive_scan.hpp:160-174. -/
def scanLoop1 (npart : List Nat) (par : Parent) (masks masksEs starts : List Nat)
    (it : Nat × Nat) (layers : List Nat) : Option (List Nat) :=
  (par.layerAt it.1 it.2).bind fun layer =>
  (loopIdx (par.es npart) it.1 it.2).bind fun lin =>
  (rd masks lin).bind fun required => (rd masksEs lin).bind fun l =>
  if required ≠ 0 then (rd starts it.1).bind fun o => st layers (o + l) layer
  else some layers

/-- `create` of the scan selector, sub_group_selector_exclusive_scan.hpp:64-192. The scans are
those of C03 and C04; `scanLocal` and `units` are their local size and the number of compute
units, `t0`, `t1`, … the orders of their kernels. Only the first `ncell` entries of the count
buffer are used. -/
def scanCreate (e : SelEnv) (t0 t1 t2 t3 t4 : Sched) (scanLocal units : Nat) (npart : List Nat)
    (par : Parent) (cond : Nat → Nat → Bool) : Option Selection :=
  let ncell := npart.length
  let nlocal := par.total npart
  (parentVisits e.P npart par).bind fun visits =>
  (runItems (scanLoop0 npart par cond) (e.s0.order visits) (List.replicate nlocal 0)).bind
    fun masks =>
  (jointExclusiveScanNSum t0 t1 scanLocal ncell (par.dCounts npart) (par.es npart) masks
    (List.replicate nlocal 0) e.d0).bind fun r =>
  (stRange e.h0 0 (r.2.take ncell)).bind fun h =>
  (jointExclusiveScanBlocking t2 t3 t4 scanLocal units ncell e.fn r.2
    (List.replicate ncell 0)).bind fun es =>
  (mapCreate e.fn e.map 0 ncell h es).bind fun m =>
  (parentVisits e.P npart par).bind fun visits =>
  (runItems (scanLoop1 npart par masks r.1 m.starts) (e.s1.order visits) m.layers).bind
    fun layers =>
  some ⟨m.total, h.take ncell, r.2.take ncell, es, m.starts, layers⟩

/-! ## Truncate and discard -/

/-- The kernel that computes the new occupancies, truncate_sub_group_selector.cpp:51-59 and
discard_sub_group_selector.cpp:54-62. The state is `d_npart_cell` and the copy `k_INT`. -/
def occKernel (occ : Nat → Nat) (orig : List Nat) (c : Nat) (s : List Nat × List Nat) :
    Option (List Nat × List Nat) :=
  (rd orig c).bind fun n => (st s.1 c (occ n)).bind fun a => (st s.2 c (occ n)).bind fun b =>
    some (a, b)

/-- The kernel that writes the layers, truncate_sub_group_selector.cpp:93-123 and
discard_sub_group_selector.cpp:96-127: loop layer `k` becomes the parent's loop layer
`shift + k`. -/
def shiftKernel (par : Parent) (shift : Nat) (counts starts : List Nat) (it : Nat × Nat)
    (layers : List Nat) : Option (List Nat) :=
  (rd counts it.1).bind fun n =>
  if it.2 < n then
    (par.layerAt it.1 (shift + it.2)).bind fun l =>
    (rd starts it.1).bind fun o => st layers (o + it.2) l
  else some layers

/-- The largest occupancy, truncate_sub_group_selector.cpp:68-71. -/
def maxOcc (ncell : Nat) (counts : List Nat) : Option Nat :=
  forLoop 0 ncell (fun c s => (rd counts c).bind fun n => some (max s n)) 0

/-- `TruncateSubGroupSelector::create`, truncate_sub_group_selector.cpp:10-139
(`occ n = min numParticles n`, `shift = 0`), and `DiscardSubGroupSelector::create`,
discard_sub_group_selector.cpp:10-143 (`occ n = max 0 (n - numParticles)`,
`shift = numParticles`); the two functions are otherwise the same. `ncell = 0` reads
`h_npart_cell_es_ptr[-1]`. -/
def shiftCreate (e : SelEnv) (scanLocal : Nat) (npart : List Nat) (par : Parent)
    (occ : Nat → Nat) (shift : Nat) : Option Selection :=
  let ncell := npart.length
  (runItems (occKernel occ (par.dCounts npart)) (e.s0.order (List.range ncell))
    (e.d0, (e.fn ncell).val)).bind fun d =>
  (stRange e.h0 0 (d.1.take ncell)).bind fun h =>
  (jointExclusiveScanGroup scanLocal ncell d.2 e.es0).bind fun es =>
  (maxOcc ncell h).bind fun mx =>
  (if ncell = 0 then none else some (ncell - 1)).bind fun last =>
  (rd es last).bind fun el => (rd h last).bind fun nl =>
  (mapCreate e.fn e.map 0 ncell h es).bind fun m =>
  (getNextMultiple mx e.localSize).bind fun range =>
  (if mx > 0 then
    runItems (shiftKernel par shift d.1 m.starts) (e.s1.order (pairs ncell range)) m.layers
    else some m.layers).bind fun layers =>
  some ⟨el + nl, h.take ncell, d.1.take ncell, es, m.starts, layers⟩

/-- `TruncateSubGroupSelector::create`. -/
def truncateCreate (e : SelEnv) (scanLocal : Nat) (npart : List Nat) (par : Parent)
    (numParticles : Nat) : Option Selection :=
  shiftCreate e scanLocal npart par (fun n => min numParticles n) 0

/-- `DiscardSubGroupSelector::create`. -/
def discardCreate (e : SelEnv) (scanLocal : Nat) (npart : List Nat) (par : Parent)
    (numParticles : Nat) : Option Selection :=
  shiftCreate e scanLocal npart par (fun n => max 0 (n - numParticles)) numParticles

/-! ## Copy -/

/-- Body of the kernel of `CopySelector::create`, copy_selector.cpp:57-71, work item
`(cell, local_id)`. -/
def copyItem (s : Selection) (localSize : Nat) (counts starts : List Nat) (it : Nat × Nat)
    (layers : List Nat) : Option (List Nat) :=
  (rd counts it.1).bind fun n =>
  runItems (fun k layers => (s.layerAt it.1 k).bind fun l =>
    (rd starts it.1).bind fun o => st layers (o + k) l) (strided it.2 n localSize) layers

/-- `CopySelector::create`, copy_selector.cpp:14-81, for a parent that is not the whole
group. -/
def copyCreate (e : SelEnv) (s : Selection) : Option Selection :=
  let ncell := s.hNpart.length
  (runItems (fun c d => (rd s.dNpart c).bind fun n => (rd s.dEs c).bind fun o =>
      (st d.1 c n).bind fun a => (st d.2 c o).bind fun b => some (a, b))
    (e.s0.order (List.range ncell)) (e.d0, e.es0)).bind fun d =>
  (stRange e.h0 0 s.hNpart).bind fun h =>
  (mapCreate e.fn e.map 0 ncell h (npartCellEs s.hNpart)).bind fun m =>
  (runItems (copyItem s e.localSize d.1 m.starts) (e.s1.order (pairs ncell e.localSize))
    m.layers).bind fun layers =>
  some ⟨s.npartLocal, h.take ncell, d.1.take ncell, d.2, m.starts, layers⟩

/-! ## Cell ranges -/

/-- The loops of cell_sub_group_selector.cpp:34-50 (114-130): the state is `h_npart_cell`,
`h_npart_cell_es`, `es_tmp` and `max_occ`. -/
def cellCounts (ncell cellStart cellEnd : Nat) (orig h es : List Nat) :
    Option (List Nat × List Nat × Nat × Nat) :=
  (forLoop 0 cellStart (fun c s => (st s.1 c 0).bind fun h => (st s.2 c 0).bind fun es =>
    some (h, es)) (h, es)).bind fun s0 =>
  (forLoop cellStart cellEnd (fun c s => (rd orig c).bind fun total =>
    (st s.1 c total).bind fun h => (st s.2.1 c s.2.2.1).bind fun es =>
    some (h, es, s.2.2.1 + total, max total s.2.2.2)) (s0.1, s0.2, 0, 0)).bind fun s1 =>
  (forLoop cellEnd ncell (fun c s => (st s.1 c 0).bind fun h => (st s.2 c s1.2.2.1).bind fun es =>
    some (h, es)) (s1.1, s1.2.1)).bind fun s2 =>
  some (s2.1, s2.2, s1.2.2.1, s1.2.2.2)

/-- `CellSubGroupSelector::create`, cell_sub_group_selector.cpp:19-186, after the constructor
(cell_sub_group_selector.hpp:34-64) accepted the range and filled all four count buffers with
zeros; `d0` and `des0` are the device buffers before the call. -/
def cellCreate (e : SelEnv) (des0 : List Nat) (npart : List Nat) (par : Parent)
    (cellStart cellEnd : Nat) : Option Selection :=
  let ncell := npart.length
  if cellStart ≤ ncell ∧ cellEnd ≤ ncell ∧ cellStart ≤ cellEnd then
    (stRange e.h0 0 (List.replicate ncell 0)).bind fun h =>
    (cellCounts ncell cellStart cellEnd (par.counts npart) h e.es0).bind fun r =>
    (if cellEnd - cellStart > 0 then
        (slice r.2.1 0 ncell).bind fun es => (slice r.1 0 ncell).bind fun n =>
        (stRange des0 0 es).bind fun des => (stRange e.d0 0 n).bind fun d => some (des, d)
      else some (des0, e.d0)).bind fun dev =>
    (mapCreate e.fn e.map cellStart cellEnd r.1 r.2.1).bind fun m =>
    (getNextMultiple r.2.2.2 e.localSize).bind fun range =>
    (if cellEnd - cellStart > 0 ∧ r.2.2.2 > 0 then
        runItems (fun it layers => shiftKernel par 0 dev.2 m.starts (it.1 + cellStart, it.2) layers)
          (e.s0.order (pairs (cellEnd - cellStart) range)) m.layers
      else some m.layers).bind fun layers =>
    some ⟨r.2.2.1, r.1.take ncell, dev.2.take ncell, dev.1, m.starts, layers⟩
  else none

/-! ## Disjoint union -/

/-- The kernel that adds up the counts, disjoint_union_sub_group_selector.cpp:59-70. -/
def unionCounts (parents : List Selection) (c : Nat) (s : List Nat × List Nat) :
    Option (List Nat × List Nat) :=
  (runItems (fun p (t : Nat × Nat) => (rd p.dNpart c).bind fun n => (rd p.dEs c).bind fun o =>
    some (t.1 + n, t.2 + o)) parents (0, 0)).bind fun t =>
  (st s.1 c t.1).bind fun a => (st s.2 c t.2).bind fun b => some (a, b)

/-- The kernel that writes the layers, disjoint_union_sub_group_selector.cpp:90-106, work item
`(cell, index)`; the state of the loop over the parents is the offset and the memory. -/
def unionItem (parents : List Selection) (localSize : Nat) (starts : List Nat) (it : Nat × Nat)
    (layers : List Nat) : Option (List Nat) :=
  (runItems (fun p (t : Nat × List Nat) => (rd p.dNpart it.1).bind fun n =>
    (runItems (fun ix layers => (p.layerAt it.1 ix).bind fun l =>
      (rd starts it.1).bind fun o => st layers (o + (t.1 + ix)) l) (strided it.2 n localSize)
      t.2).bind fun layers => some (t.1 + n, layers)) parents (0, layers)).bind fun t => some t.2

/-- `DisjointUnionSubGroupSelector::create`, disjoint_union_sub_group_selector.cpp:24-127,
including the consistency check of lines 113-114. -/
def unionCreate (e : SelEnv) (ncell : Nat) (parents : List Selection) : Option Selection :=
  (runItems (unionCounts parents) (e.s0.order (List.range ncell)) (e.d0, e.es0)).bind fun d =>
  (stRange e.h0 0 (d.1.take ncell)).bind fun h =>
  (mapCreate e.fn e.map 0 ncell h d.2).bind fun m =>
  (runItems (unionItem parents e.localSize m.starts) (e.s1.order (pairs ncell e.localSize))
    m.layers).bind fun layers =>
  (if ncell = 0 then none else some (ncell - 1)).bind fun last =>
  (rd d.2 last).bind fun el => (rd h last).bind fun nl =>
  if el + nl = (parents.map Selection.npartLocal).sum then
    some ⟨el + nl, h.take ncell, d.1.take ncell, d.2, m.starts, layers⟩
  else none

end NP
