import Verif.Sub.Model

/-!
# `particle_group_partition`

`ParticleGroupPartitioner::create` builds the selections of all partitions at once.
-/

set_option autoImplicit false

namespace NP

/-- The memory of the selector of one partition: its `SubGroupParticleMap`. `alive` is
`still_exists[px]`, particle_group_partition.cpp:46-52. -/
structure PartBuf where
  alive : Bool
  map : LayerMap
  h0 : List Nat
  d0 : List Nat
  es0 : List Nat

/-- The partition of a particle if it is in range, particle_group_partition.hpp:182. -/
def partIndex (nparts : Nat) (v : Int) : Option Nat :=
  if 0 ≤ v ∧ v < nparts then some v.toNat else none

/-- `loop_0`, particle_group_partition.hpp:172-193. `f cell layer` is the value of the partition
property. The state is `k_cell_counts` and `k_particle_layers`. The offset of line 178 is
computed before the range check, but only used after it. -/
def partLoop0 (npart : List Nat) (par : Parent) (f : Nat → Nat → Int) (alive : List Bool)
    (it : Nat × Nat) (s : List Nat × List Nat) : Option (List Nat × List Nat) :=
  (par.layerAt it.1 it.2).bind fun layer =>
  match partIndex alive.length (f it.1 layer) with
  | none => some s
  | some p =>
    (rd alive p).bind fun b =>
    if b then
      (fetchAdd s.1 (p * npart.length + it.1)).bind fun l =>
      (loopIdx (par.es npart) it.1 it.2).bind fun lin =>
      (st s.2 lin l.1).bind fun m => some (l.2, m)
    else some s

/-- The memory of a partition after its counts, exclusive sums and map were made. -/
structure PartMid where
  d : List Nat
  h : List Nat
  es : List Nat
  m : LayerMap

/-- particle_group_partition.cpp:86-149 for one partition: copy of the counts (the kernel of
lines 98-105, whose work item `idx` writes entry `idx`), exclusive scan, copies to the host and
`SubGroupParticleMap::create`. The loops over the partitions are independent of each other. Of
the count buffer only the first `ncell` entries are copied to the host in the model; the code
copies all of it. -/
def partPrep (s : Sched) (fresh : Fresh Nat) (scanLocal ncell : Nat) (counts : List Nat)
    (px : Nat) (b : PartBuf) : Option PartMid :=
  (runItems (fun idx (t : List Nat × List Nat) => (rd counts (ncell * px + idx)).bind fun n =>
      (st t.1 idx n).bind fun d => (st t.2 idx 0).bind fun es => some (d, es))
    (s.order (List.range ncell)) (b.d0, b.es0)).bind fun t =>
  (slice counts (px * ncell) (px * ncell + ncell)).bind fun src =>
  (jointExclusiveScanGroup scanLocal ncell src t.2).bind fun es =>
  (stRange b.h0 0 (t.1.take ncell)).bind fun h =>
  (mapCreate fresh b.map 0 ncell h es).bind fun m => some ⟨t.1, h, es, m⟩

/-- `partPrep` for all partitions; `none` for those that no longer exist. -/
def partPrepAll (s : Sched) (fresh : Fresh Nat) (scanLocal ncell : Nat) (counts : List Nat) :
    Nat → List PartBuf → Option (List (Option PartMid))
  | _, [] => some []
  | px, b :: bs =>
    (if b.alive then (partPrep s fresh scanLocal ncell counts px b).map some
      else some none).bind fun r =>
    (partPrepAll s fresh scanLocal ncell counts (px + 1) bs).bind fun rs => some (r :: rs)

/-- `loop_1`, particle_group_partition.hpp:200-219. `es` are the pointers to the exclusive sums,
null for partitions that no longer exist; the state is the layer map of each partition. -/
def partLoop1 (npart : List Nat) (par : Parent) (f : Nat → Nat → Int) (nparts : Nat)
    (pl : List Nat) (es : List (Option (List Nat)))
    (it : Nat × Nat) (maps : List (Option (List Nat))) : Option (List (Option (List Nat))) :=
  (par.layerAt it.1 it.2).bind fun layer =>
  (loopIdx (par.es npart) it.1 it.2).bind fun lin =>
  (rd pl lin).bind fun l =>
  match partIndex nparts (f it.1 layer) with
  | none => some maps
  | some p =>
    (rd maps p).bind fun mp => (rd es p).bind fun ep =>
    match mp with
    | none => some maps
    | some a => ep.bind fun ep => (rd ep it.1).bind fun o =>
      (st a (o + l) layer).bind fun a => st maps p (some a)

/-- The selection of one partition, particle_group_partition.cpp:173-191. -/
def partSelection (ncell : Nat) (m : PartMid) (layers : List Nat) : Selection :=
  ⟨m.m.total, m.h.take ncell, m.d.take ncell, m.es, m.m.starts, layers⟩

/-- `ParticleGroupPartitioner::create`, particle_group_partition.cpp:36-202: for each partition
its new selection, or `none` if it no longer exists and its selection is left as it was. -/
def partitionCreate (e : SelEnv) (scanLocal : Nat) (npart : List Nat) (par : Parent)
    (f : Nat → Nat → Int) (bufs : List PartBuf) : Option (List (Option Selection)) :=
  let ncell := npart.length
  let alive := bufs.map PartBuf.alive
  if bufs.length = 0 then some [] else
  (parentVisits e.P npart par).bind fun visits =>
  (runItems (partLoop0 npart par f alive) (e.s0.order visits)
    (List.replicate (ncell * bufs.length) 0, (e.fn npart.sum).val)).bind fun s =>
  (partPrepAll e.s1 e.fn scanLocal ncell s.1 0 bufs).bind fun mids =>
  (parentVisits e.P npart par).bind fun visits =>
  (runItems (partLoop1 npart par f bufs.length s.2 (mids.map (Option.map PartMid.es)))
    (e.s2.order visits) (mids.map (Option.map fun m => m.m.layers))).bind fun maps =>
  some (List.zipWith (fun m a => m.bind fun m => a.map fun a => partSelection ncell m a) mids maps)

end NP
